import Verif.Model.Startup
import Verif.Props.Snowflake
import Verif.Props.CycleSeq
import Verif.Props.SgipSeq

/-!
# C86: the id generators follow the configuration; C87: the loggers do; C88: starting the account store
-/

namespace Gosms.Startup

/-! ## C86 -/

/-- C86: the 64 bit generator has the configured data center and worker, the SGIP generator the configured node number (all
32 bits of it), the BCD generator the configured code. -/
theorem generators_configured_partial (c : Config) (d w node : Nat) (hd : c.int (ascii "Snowflake.B64.DC") = d)
    (hw : c.int (ascii "Snowflake.B64.worker") = w) (hn : c.int (ascii "Snowflake.SGIP") = node) (hd' : d < 8) (hw' : w < 128)
    (hn' : node < 2 ^ 32) :
    (seqInit c).b64.datacenterId.toNat = d ∧ (seqInit c).b64.workerId.toNat = w ∧ (seqInit c).sgip.node.toNat = node ∧
    (seqInit c).bcd = newBcdSequence (c.str (ascii "Snowflake.BCD")) := by
  refine ⟨?_, ?_, ?_, rfl⟩
  · simp only [seqInit, newSnowflake, hd, BitVec.ofInt_natCast, BitVec.toNat_ofNat]; omega
  · simp only [seqInit, newSnowflake, hw, BitVec.ofInt_natCast, BitVec.toNat_ofNat]; omega
  · simp only [seqInit, newSgipSequencer, hn, BitVec.ofInt_natCast]
    show (BitVec.ofNat 32 node).toNat = node
    rw [BitVec.toNat_ofNat]; omega

/-- C86: two processes whose configurations name different data centers or workers never give out the same 64 bit id, whatever their
clocks show and however many ids they have given out. -/
theorem configured_ids_disjoint (c1 c2 : Config) (d1 w1 d2 w2 : Nat)
    (h1 : c1.int (ascii "Snowflake.B64.DC") = d1) (h2 : c1.int (ascii "Snowflake.B64.worker") = w1)
    (h3 : c2.int (ascii "Snowflake.B64.DC") = d2) (h4 : c2.int (ascii "Snowflake.B64.worker") = w2)
    (b1 : d1 < 8) (b2 : w1 < 128) (b3 : d2 < 8) (b4 : w2 < 128) (hne : d1 ≠ d2 ∨ w1 ≠ w2)
    (clock1 clock2 : List Int) (hm1 : clock1.Pairwise (· ≤ ·)) (hm2 : clock2.Pairwise (· ≤ ·))
    (hr1 : ∀ t ∈ clock1, SfInRange t) (hr2 : ∀ t ∈ clock2, SfInRange t) (n1 n2 : Nat) (ids1 ids2 : List (BitVec 64))
    (hrun1 : (seqInit c1).b64.run clock1 n1 = some ids1) (hrun2 : (seqInit c2).b64.run clock2 n2 = some ids2) :
    ∀ a ∈ ids1, ∀ b ∈ ids2, a ≠ b := by
  have field : ∀ (d w : Nat), d < 8 → w < 128 → ∀ (n : Nat) (s : Snowflake) (clock : List Int) (ids : List (BitVec 64)),
      s.datacenterId.toNat = d → s.workerId.toNat = w → s.sequence.toNat < 4096 → clock.Pairwise (· ≤ ·) →
      (∀ t ∈ clock, s.timestamp ≤ t) → (∀ t ∈ clock, SfInRange t) → s.run clock n = some ids →
      ∀ a ∈ ids, a.toNat / 2 ^ 12 % 2 ^ 10 = d * 2 ^ 7 + w := by
    intro d w hd hw n
    induction n with
    | zero =>
      intro s clock ids _ _ _ _ _ _ hrun a ha
      rw [Snowflake.run] at hrun
      cases hrun
      cases ha
    | succ n ih =>
      intro s clock ids e1 e2 e3 e4 e5 e6 hrun a ha
      rw [Snowflake.run] at hrun
      cases hn : s.nextVal clock with
      | none => rw [hn] at hrun; cases hrun
      | some r =>
        obtain ⟨⟨id, s'⟩, clock'⟩ := r
        rw [hn] at hrun
        simp only [Option.bind_some] at hrun
        obtain ⟨ids', hids', rfl⟩ := Option.map_eq_some_iff.1 hrun
        obtain ⟨g1, g2, g3, g4, g5, g6, g7, g8, g9⟩ := sf_step hn (by omega) (by omega) e3 e4 e5 e6
        rcases List.mem_cons.1 ha with rfl | ha'
        · have hq : s'.sequence.toNat < 4096 := g3
          rw [e1, e2] at g9
          have ht : 0 ≤ s'.timestamp - sfEpoch := by have := g8.1; omega
          obtain ⟨t, ht'⟩ : ∃ t : Nat, s'.timestamp - sfEpoch = t := ⟨(s'.timestamp - sfEpoch).toNat, by omega⟩
          rw [ht'] at g9
          omega
        · exact ih s' clock' ids' (by rw [g1]; exact e1) (by rw [g2]; exact e2) g3 g4 g5 g6 hids' a ha'
  have start : ∀ (c : Config) (t : Int), SfInRange t → (seqInit c).b64.timestamp ≤ t := by
    intro c t ht
    have := ht.1
    simp only [seqInit, newSnowflake, sfEpoch] at *
    omega
  have dc : ∀ (c : Config) (d : Nat), c.int (ascii "Snowflake.B64.DC") = d → d < 8 → (seqInit c).b64.datacenterId.toNat = d := by
    intro c d h hb
    simp only [seqInit, newSnowflake, h, BitVec.ofInt_natCast, BitVec.toNat_ofNat]; omega
  have wk : ∀ (c : Config) (d : Nat), c.int (ascii "Snowflake.B64.worker") = d → d < 128 → (seqInit c).b64.workerId.toNat = d := by
    intro c d h hb
    simp only [seqInit, newSnowflake, h, BitVec.ofInt_natCast, BitVec.toNat_ofNat]; omega
  have zero : ∀ c : Config, (seqInit c).b64.sequence.toNat < 4096 := fun c => (by decide : (0 : BitVec 64).toNat < 4096)
  intro a ha b hb hab
  have f1 := field d1 w1 b1 b2 n1 _ clock1 ids1 (dc c1 d1 h1 b1) (wk c1 w1 h2 b2) (zero c1) hm1 (fun t ht => start c1 t (hr1 t ht)) hr1 hrun1 a ha
  have f2 := field d2 w2 b3 b4 n2 _ clock2 ids2 (dc c2 d2 h3 b3) (wk c2 w2 h4 b4) (zero c2) hm2 (fun t ht => start c2 t (hr2 t ht)) hr2 hrun2 b hb
  rw [hab, f2] at f1
  omega

/-- C86 fails: the data center and worker configured for 32 bit ids are not used: whatever they are, the generators are the same. -/
theorem b32_settings_ignored_fails (c : Config) (dc worker : Int) :
    seqInit ((c.setInt (ascii "Snowflake.B32.DC") dc).setInt (ascii "Snowflake.B32.Worker") worker) = seqInit c := by
  have k : ∀ a : Bytes, a ≠ ascii "Snowflake.B32.Worker" → a ≠ ascii "Snowflake.B32.DC" →
      ((c.setInt (ascii "Snowflake.B32.DC") dc).setInt (ascii "Snowflake.B32.Worker") worker).int a = c.int a := by
    intro a h1 h2
    simp only [Config.setInt, h1, h2, if_false]
  simp only [seqInit]
  rw [k (ascii "Snowflake.B64.DC") (by decide) (by decide), k (ascii "Snowflake.B64.worker") (by decide) (by decide),
    k (ascii "Snowflake.SGIP") (by decide) (by decide)]
  rfl

/-- C86 fails: two processes whose workers (0-127) differ by a multiple of 16 give out exactly the same 32 bit sequence numbers. -/
theorem b32_workers_collide_fails (c1 c2 : Config) (d w1 w2 : Nat)
    (h1 : c1.int (ascii "Snowflake.B64.DC") = d) (h2 : c1.int (ascii "Snowflake.B64.worker") = w1)
    (h3 : c2.int (ascii "Snowflake.B64.DC") = d) (h4 : c2.int (ascii "Snowflake.B64.worker") = w2)
    (hw : w1 % 16 = w2 % 16) (n : Nat) : (seqInit c1).b32.nth n = (seqInit c2).b32.nth n := by
  have e : ∀ a b : Nat, a % 16 = b % 16 → ((BitVec.ofNat 64 a).setWidth 32 : BitVec 32) <<< 28 = ((BitVec.ofNat 64 b).setWidth 32 : BitVec 32) <<< 28 := by
    intro a b hab
    apply BitVec.eq_of_toNat_eq
    simp only [BitVec.toNat_shiftLeft, BitVec.toNat_setWidth, BitVec.toNat_ofNat, Nat.shiftLeft_eq]
    omega
  have f : ∀ (c : Config) (w : Nat), c.int (ascii "Snowflake.B64.DC") = d → c.int (ascii "Snowflake.B64.worker") = w →
      (seqInit c).b32 = newCycleSequence ((BitVec.ofNat 64 d).setWidth 32) ((BitVec.ofNat 64 w).setWidth 32) := by
    intro c w h h'
    simp only [seqInit, h, h', BitVec.ofInt_natCast]
  rw [f c1 w1 h1 h2, f c2 w2 h3 h4, cycle_nth _ (new_seq_lt _ _), cycle_nth _ (new_seq_lt _ _)]
  have ew := e w1 w2 hw
  generalize (BitVec.ofNat 64 w1).setWidth 32 = x at ew ⊢
  generalize (BitVec.ofNat 64 w2).setWidth 32 = y at ew ⊢
  simp only [newCycleSequence, ew]

/-- C86 fails: two processes with the same SGIP node number and different data centers and workers (in the documented ranges) that
agree in `8 * dc + worker` give out the same SGIP sequence numbers at the same times. -/
theorem sgip_workers_collide_fails (c1 c2 : Config) (node d1 w1 d2 w2 : Int)
    (h1 : c1.int (ascii "Snowflake.B64.DC") = d1) (h2 : c1.int (ascii "Snowflake.B64.worker") = w1)
    (h3 : c2.int (ascii "Snowflake.B64.DC") = d2) (h4 : c2.int (ascii "Snowflake.B64.worker") = w2)
    (h5 : c1.int (ascii "Snowflake.SGIP") = node) (h6 : c2.int (ascii "Snowflake.SGIP") = node)
    (hw : 8 * d1 + w1 = 8 * d2 + w2) (times : List Clock) : (seqInit c1).sgip.run times = (seqInit c2).sgip.run times := by
  have e : ∀ d w : Int, (8 : BitVec 64) * BitVec.ofInt 64 d + BitVec.ofInt 64 w = BitVec.ofInt 64 (8 * d + w) := by
    intro d w
    rw [BitVec.ofInt_add, BitVec.ofInt_mul]
    rfl
  simp only [seqInit, newSgipSequencer, h1, h2, h3, h4, h5, h6, e, hw]

/-- Data center 0, worker 8 and data center 1, worker 0; worker 127 as shipped. -/
example : let c (d w : Int) : Config := ⟨fun _ => [], fun k => if k = ascii "Snowflake.B64.DC" then d else
      if k = ascii "Snowflake.B64.worker" then w else 3037196688, fun _ => false⟩
    (seqInit (c 0 8)).sgip = (seqInit (c 1 0)).sgip ∧ (seqInit (c 0 127)).b64.workerId = 127 ∧
    (seqInit (c 0 127)).b32.nth 0 = 0xF0000001#32 ∧ (seqInit (c 0 127)).sgip.node = 3037196688 := by decide

/-! ## C87 -/

/-- What the documentation of `New` promises of one setting: the configured value, or the default if there is none. -/
def orDefault {α : Type} [DecidableEq α] (v unset dflt : α) : α := if v = unset then dflt else v

/-- C87: file, format, precision, size, age, number of backups and compression of a logger are those configured under its name, or the
defaults. -/
theorem logger_settings_partial (c : Config) (base name : Bytes) :
    (newLogger c base name).fileName = base ++ orDefault (c.str (ascii "Logs." ++ name ++ ascii ".LogName")) [] (ascii "logs/" ++ name ++ ascii ".log") ∧
    (newLogger c base name).textFormat = orDefault (c.str (ascii "Logs." ++ name ++ ascii ".TextFormat")) [] (ascii "json") ∧
    (newLogger c base name).timePrecision = orDefault (c.str (ascii "Logs." ++ name ++ ascii ".TimePrecision")) [] (ascii "millisecond") ∧
    (newLogger c base name).maxSize = orDefault (c.int (ascii "Logs." ++ name ++ ascii ".MaxSize")) 0 10 ∧
    (newLogger c base name).maxAge = orDefault (c.int (ascii "Logs." ++ name ++ ascii ".MaxAge")) 0 14 ∧
    (newLogger c base name).maxBackups = orDefault (c.int (ascii "Logs." ++ name ++ ascii ".MaxBackups")) 0 100 ∧
    (newLogger c base name).compress = c.bool (ascii "Logs." ++ name ++ ascii ".Compress") :=
  ⟨rfl, rfl, rfl, rfl, rfl, rfl, rfl⟩

/-- C87 fails: the level configured under the logger's name has no effect, for any name, level and other settings. -/
theorem logger_level_fails (c : Config) (base name : Bytes) (level : Int) :
    newLogger (c.setInt (ascii "Logs." ++ name ++ ascii ".Level") level) base name = newLogger c base name := by
  have k : ∀ a : Bytes, a ≠ ascii "Logs." ++ name ++ ascii ".Level" →
      (c.setInt (ascii "Logs." ++ name ++ ascii ".Level") level).int a = c.int a := by
    intro a h
    simp only [Config.setInt, h, if_false]
  have n1 : ∀ s : Bytes, s ≠ ascii ".Level" → ascii "Logs." ++ name ++ s ≠ ascii "Logs." ++ name ++ ascii ".Level" :=
    fun s hs h => hs (List.append_cancel_left h)
  have n2 : ascii "Logs" ++ name ++ ascii "Level" ≠ ascii "Logs." ++ name ++ ascii ".Level" := by
    intro h
    have := congrArg List.length h
    have e1 : (ascii "Logs").length = 4 := by decide
    have e2 : (ascii "Level").length = 5 := by decide
    have e3 : (ascii "Logs.").length = 5 := by decide
    have e4 : (ascii ".Level").length = 6 := by decide
    simp only [List.length_append, e1, e2, e3, e4] at this
    omega
  unfold newLogger
  rw [k _ (n1 (ascii ".MaxSize") (by decide)), k _ (n1 (ascii ".MaxBackups") (by decide)), k _ (n1 (ascii ".MaxAge") (by decide)), k _ n2]
  rfl

/-- C87: the server's default logger has the two configured outputs with their levels. -/
theorem server_log_levels (c : Config) (base : Bytes) :
    (serverLogInit c base).map Logger.level = [c.int (ascii "Logs.Default.Level"), c.int (ascii "Logs.Error.Level")] ∧
    (serverLogInit c base).map Logger.fileName =
      [base ++ c.str (ascii "Logs.Default.LogName"), base ++ c.str (ascii "Logs.Error.LogName")] := ⟨rfl, rfl⟩

/-- C87: file, format, precision, size, age, number of backups and compression of the two outputs of the default logger are those configured under
their names, in both processes. -/
theorem default_log_settings (c : Config) (base : Bytes) :
    ∃ a b a' b', serverLogInit c base = [a, b] ∧ clientLogInit c base = [a', b'] ∧
      ∀ l ∈ [(a, "Default"), (a', "Default"), (b, "Error"), (b', "Error")],
        l.1.fileName = base ++ c.str (ascii ("Logs." ++ l.2 ++ ".LogName")) ∧ l.1.textFormat = c.str (ascii ("Logs." ++ l.2 ++ ".TextFormat")) ∧
        l.1.timePrecision = c.str (ascii ("Logs." ++ l.2 ++ ".TimePrecision")) ∧ l.1.maxSize = c.int (ascii ("Logs." ++ l.2 ++ ".MaxSize")) ∧
        l.1.maxAge = c.int (ascii ("Logs." ++ l.2 ++ ".MaxAge")) ∧ l.1.maxBackups = c.int (ascii ("Logs." ++ l.2 ++ ".MaxBackups")) ∧
        l.1.compress = c.bool (ascii ("Logs." ++ l.2 ++ ".Compress")) := by
  refine ⟨_, _, _, _, rfl, rfl, ?_⟩
  simp only [List.forall_mem_cons]
  exact ⟨⟨rfl, rfl, rfl, rfl, rfl, rfl, rfl⟩, ⟨rfl, rfl, rfl, rfl, rfl, rfl, rfl⟩, ⟨rfl, rfl, rfl, rfl, rfl, rfl, rfl⟩,
    ⟨rfl, rfl, rfl, rfl, rfl, rfl, rfl⟩, by simp⟩

/-- C87 fails: the client's error output has the level of the other output, whatever level is configured for it. -/
theorem client_error_level_fails (c : Config) (base : Bytes) (level : Int) :
    clientLogInit (c.setInt (ascii "Logs.Error.Level") level) base = clientLogInit c base ∧
    (clientLogInit c base).map Logger.level = [c.int (ascii "Logs.Default.Level"), c.int (ascii "Logs.Default.Level")] := by
  refine ⟨?_, rfl⟩
  have k : ∀ a : Bytes, a ≠ ascii "Logs.Error.Level" → (c.setInt (ascii "Logs.Error.Level") level).int a = c.int a := by
    intro a h
    simp only [Config.setInt, h, if_false]
  unfold clientLogInit teeOption
  rw [k (ascii "Logs." ++ ascii "Default" ++ ascii ".MaxSize") (by decide), k (ascii "Logs." ++ ascii "Default" ++ ascii ".MaxAge") (by decide),
    k (ascii "Logs." ++ ascii "Default" ++ ascii ".MaxBackups") (by decide), k (ascii "Logs.Default.Level") (by decide),
    k (ascii "Logs." ++ ascii "Error" ++ ascii ".MaxSize") (by decide), k (ascii "Logs." ++ ascii "Error" ++ ascii ".MaxAge") (by decide),
    k (ascii "Logs." ++ ascii "Error" ++ ascii ".MaxBackups") (by decide)]
  rfl

/-- The shipped configuration asks for level -1 for CounterDB; the logger gets 0. -/
example : (newLogger ⟨fun _ => [], fun k => if k = ascii "Logs.CounterDB.Level" then -1 else 0, fun _ => false⟩ [] (ascii "CounterDB")).level = 0 := by
  decide

/-! ## C88 -/

/-- A byte string without the character `<`. -/
def NoAngle (s : Bytes) : Prop := (0x3C : UInt8) ∉ s

theorem replaceAux_none (old new : Bytes) (h : old.head? = some 0x3C) : ∀ (n : Nat) (s : Bytes), s.length ≤ n → NoAngle s →
    replaceAux old new n s = s := by
  intro n
  induction n with
  | zero => intro s _ _; rfl
  | succ n ih =>
    intro s hs hn
    cases s with
    | nil => rfl
    | cons c cs =>
      cases old with
      | nil => cases h
      | cons o os =>
        simp only [List.head?_cons, Option.some.injEq] at h
        subst h
        have hc : c ≠ 0x3C := fun he => hn (he ▸ List.mem_cons_self)
        rw [replaceAux, if_neg (by simpa [List.isPrefixOf] using fun he : (0x3C : UInt8) = c => absurd he.symm hc), ih cs (by simpa using hs) (fun hm => hn (List.mem_cons_of_mem _ hm))]

/-- A prefix without `<` is passed over. -/
theorem replaceAux_pre (old new : Bytes) (h : old.head? = some 0x3C) (rest : Bytes) : ∀ (a : Bytes) (n : Nat), a.length ≤ n → NoAngle a →
    replaceAux old new n (a ++ rest) = a ++ replaceAux old new (n - a.length) rest := by
  intro a
  induction a with
  | nil => intro n _ _; simp
  | cons c cs ih =>
    intro n hn ha
    cases n with
    | zero => simp at hn
    | succ n =>
      cases old with
      | nil => cases h
      | cons o os =>
        simp only [List.head?_cons, Option.some.injEq] at h
        subst h
        have hc : c ≠ 0x3C := fun he => ha (he ▸ List.mem_cons_self)
        rw [List.cons_append, replaceAux, if_neg (by simpa [List.isPrefixOf] using fun he : (0x3C : UInt8) = c => absurd he.symm hc),
          ih n (by simpa using hn) (fun hm => ha (List.mem_cons_of_mem _ hm))]
        simp

theorem replaceAux_hit (old new rest : Bytes) (h : old ≠ []) (n : Nat) : replaceAux old new (n + 1) (old ++ rest) =
    new ++ replaceAux old new n rest := by
  cases old with
  | nil => exact absurd rfl h
  | cons o os =>
    have hp : (o :: os).isPrefixOf (o :: (os ++ rest)) = true := by
      rw [List.isPrefixOf_iff_prefix]; exact ⟨rest, rfl⟩
    rw [List.cons_append, replaceAux, if_pos hp]
    congr 2
    show List.drop (o :: os).length ((o :: os) ++ rest) = rest
    rw [List.drop_left]

/-- C88: in an address with the placeholders `<user>` and `<passwd>` exactly these are replaced, by the credentials from the
environment. (The user name must not contain `<`, for it could then form a placeholder.) -/
theorem mongoUri_filled (a b c user passwd : Bytes) (ha : NoAngle a) (hb : NoAngle b) (hc : NoAngle c) (hu : NoAngle user) :
    mongoUri (a ++ ascii "<user>" ++ b ++ ascii "<passwd>" ++ c) user passwd = a ++ user ++ b ++ passwd ++ c := by
  have h1 : (ascii "<user>").head? = some 0x3C := by decide
  have h2 : (ascii "<passwd>").head? = some 0x3C := by decide
  have l1 : (ascii "<user>").length = 6 := by decide
  have l2 : (ascii "<passwd>").length = 8 := by decide
  have n1 : ascii "<user>" ≠ [] := by decide
  have n2 : ascii "<passwd>" ≠ [] := by decide
  have step1 : replaceAll (a ++ ascii "<user>" ++ b ++ ascii "<passwd>" ++ c) (ascii "<user>") user =
      a ++ (user ++ (b ++ (ascii "<passwd>" ++ c))) := by
    unfold replaceAll
    have e : a ++ ascii "<user>" ++ b ++ ascii "<passwd>" ++ c = a ++ (ascii "<user>" ++ (b ++ (ascii "<passwd>" ++ c))) := by
      simp only [List.append_assoc]
    have hl : (a ++ ascii "<user>" ++ b ++ ascii "<passwd>" ++ c).length = a.length + (5 + b.length + 8 + c.length + 1) := by
      simp only [List.length_append, l1, l2]; omega
    rw [hl, e, replaceAux_pre _ _ h1 _ a _ (by omega) ha, Nat.add_sub_cancel_left, replaceAux_hit _ _ _ n1,
      replaceAux_pre _ _ h1 _ b _ (by omega) hb]
    have hm : 5 + b.length + 8 + c.length - b.length = (12 + c.length) + 1 := by omega
    rw [hm]
    have hskip : replaceAux (ascii "<user>") user (12 + c.length + 1) (ascii "<passwd>" ++ c) = ascii "<passwd>" ++ c := by
      have e2 : ascii "<passwd>" ++ c = 0x3C :: (ascii "passwd>" ++ c) := by rfl
      rw [e2, replaceAux, if_neg (by intro h; simp [ascii, List.isPrefixOf] at h)]
      rw [replaceAux_none _ _ h1 _ _ (by simp only [List.length_append]; have : (ascii "passwd>").length = 7 := by decide
                                         omega)
        (by intro hm; rcases List.mem_append.1 hm with h | h
            · revert h; decide
            · exact hc h)]
    rw [hskip]
  unfold mongoUri
  rw [step1]
  unfold replaceAll
  have hl : (a ++ (user ++ (b ++ (ascii "<passwd>" ++ c)))).length = (a ++ (user ++ b)).length + (7 + c.length + 1) := by
    simp only [List.length_append, l2]; omega
  have e : a ++ (user ++ (b ++ (ascii "<passwd>" ++ c))) = (a ++ (user ++ b)) ++ (ascii "<passwd>" ++ c) := by
    simp only [List.append_assoc]
  rw [hl, e, replaceAux_pre _ _ h2 _ (a ++ (user ++ b)) _ (by omega) ?_, Nat.add_sub_cancel_left, replaceAux_hit _ _ _ n2,
    replaceAux_none _ _ h2 _ _ (by omega) hc]
  · simp only [List.append_assoc]
  · intro hm
    rcases List.mem_append.1 hm with h | h
    · exact ha h
    · rcases List.mem_append.1 h with h | h
      · exact hu h
      · exact hb h

/-- C88: the store starts if the configured kind is the directory (or nothing), or the database with an address, credentials in the
environment and an answering server. -/
theorem store_starts_partial (c : Config) (db : Db) :
    (∃ s, newStore c db = .running s) ↔
      c.str (ascii "AuthClient.StoreType") ∈ [[], ascii "yaml", ascii "yml"] ∨
      (c.str (ascii "AuthClient.StoreType") = ascii "mongo" ∧ c.str (ascii "Mongo.URI") ≠ [] ∧ db.user ≠ [] ∧ db.passwd ≠ [] ∧
        db.reachable (mongoUri (c.str (ascii "Mongo.URI")) db.user db.passwd) = true) := by
  have key : ascii "Mongo" ++ ascii ".URI" = ascii "Mongo.URI" := by decide
  have ny : ascii "mongo" ≠ [] ∧ ascii "mongo" ≠ ascii "yaml" ∧ ascii "mongo" ≠ ascii "yml" := by decide
  simp only [newStore, initDB, setConnect, key, List.mem_cons, List.not_mem_nil, or_false]
  by_cases h1 : c.str (ascii "AuthClient.StoreType") = [] ∨ c.str (ascii "AuthClient.StoreType") = ascii "yaml" ∨
      c.str (ascii "AuthClient.StoreType") = ascii "yml"
  · rw [if_pos h1]
    exact ⟨fun _ => .inl h1, fun _ => ⟨_, rfl⟩⟩
  · rw [if_neg h1]
    by_cases h2 : c.str (ascii "AuthClient.StoreType") = ascii "mongo"
    · rw [if_pos h2]
      by_cases h3 : c.str (ascii "Mongo.URI") = []
      · rw [if_pos h3]
        simp [h1, h3]
      · rw [if_neg h3]
        by_cases h4 : db.user = [] ∨ db.passwd = []
        · rw [if_pos h4]
          simp only [Option.map_none]
          constructor
          · rintro ⟨s, hs⟩; cases hs
          · rintro (h | ⟨_, _, h5, h6, _⟩)
            · exact absurd h h1
            · rcases h4 with h4 | h4
              · exact absurd h4 h5
              · exact absurd h4 h6
        · rw [if_neg h4]
          have h4' : db.user ≠ [] ∧ db.passwd ≠ [] := ⟨fun h => h4 (.inl h), fun h => h4 (.inr h)⟩
          cases h5 : db.reachable (mongoUri (c.str (ascii "Mongo.URI")) db.user db.passwd)
          · simp [h1]
          · simp [h2, h3, h4']
    · rw [if_neg h2]
      simp [h1, h2]

/-- C88 fails: any other kind makes the process panic at the start - without a message about the configuration -, and so does the
database without an address. -/
theorem store_panics_fails (c : Config) (db : Db)
    (h : c.str (ascii "AuthClient.StoreType") ∉ [[], ascii "yaml", ascii "yml", ascii "mongo"] ∨
      (c.str (ascii "AuthClient.StoreType") = ascii "mongo" ∧ c.str (ascii "Mongo.URI") = [])) : newStore c db = .panic := by
  cases hs : newStore c db with
  | panic => rfl
  | running s =>
    exfalso
    rcases (store_starts_partial c db).1 ⟨s, hs⟩ with h1 | ⟨h1, h2, _⟩
    · rcases h with h | ⟨h3, _⟩
      · exact h (by simp only [List.mem_cons, List.not_mem_nil, or_false] at h1 ⊢; rcases h1 with h1 | h1 | h1 <;> simp [h1])
      · rw [h3] at h1; revert h1; decide
    · rcases h with h | ⟨_, h3⟩
      · exact h (by simp [h1])
      · exact h2 h3

/-- The shipped configuration with credentials `u`, `p`. -/
example : mongoUri (ascii "mongodb+srv://<user>:<passwd>@cluster0.net/test") (ascii "u") (ascii "p") = ascii "mongodb+srv://u:p@cluster0.net/test" := by
  decide

/-! ## C98: the database password -/

/-- C98 fails: on every successful start with a database the log gets a line with the user name and the password, at the shipped level. -/
theorem database_password_logged_fails (c : Config) (db : Db) (a b d : Bytes) (ha : NoAngle a) (hb : NoAngle b) (hd : NoAngle d)
    (hu : NoAngle db.user) (hne : db.user ≠ [] ∧ db.passwd ≠ [])
    (huri : c.str (ascii "Mongo.URI") = a ++ ascii "<user>" ++ b ++ ascii "<passwd>" ++ d)
    (hreach : db.reachable (a ++ db.user ++ b ++ db.passwd ++ d) = true) :
    initDB c (ascii "Mongo") db = some (true, [ascii "Connected to " ++ a ++ db.user ++ b ++ db.passwd ++ d]) := by
  have key : ascii "Mongo" ++ ascii ".URI" = ascii "Mongo.URI" := by decide
  have hne0 : c.str (ascii "Mongo.URI") ≠ [] := by
    rw [huri]
    intro h
    have : (ascii "<user>").length = 0 := by
      have := congrArg List.length h
      simp only [List.length_append, List.length_nil] at this
      omega
    exact absurd this (by decide)
  unfold initDB setConnect
  rw [key, if_neg hne0, if_neg (by rintro (h | h); exact hne.1 h; exact hne.2 h)]
  simp only
  rw [huri, mongoUri_filled a b d db.user db.passwd ha hb hd hu, hreach]
  simp only [↓reduceIte, Option.map_some, List.append_assoc]

example : NoAngle (ascii "mongodb://") ∧ NoAngle (ascii ":") ∧ NoAngle (ascii "@db:27017") ∧ NoAngle (ascii "sms") := by
  refine ⟨?_, ?_, ?_, ?_⟩ <;> (unfold NoAngle; decide)

/-! ## C112: the directory of the process -/

namespace Spec

/-- `sub` occurs in `s`. -/
def Occurs (sub s : Bytes) : Prop := ∃ a b, s = a ++ sub ++ b

end Spec

theorem index_none (sub s : Bytes) (h : ¬ Spec.Occurs sub s) : index sub s = none := by
  induction s with
  | nil =>
    rw [index, if_neg]
    rintro rfl
    exact h ⟨[], [], rfl⟩
  | cons c cs ih =>
    rw [index, if_neg]
    · rw [ih]
      · rfl
      · rintro ⟨a, b, e⟩
        exact h ⟨c :: a, b, by rw [e]; rfl⟩
    · intro hp
      obtain ⟨t, ht⟩ := List.isPrefixOf_iff_prefix.1 hp
      exact h ⟨[], t, by rw [← ht]; rfl⟩

theorem index_first (sub : Bytes) (hs : sub ≠ []) (a b : Bytes) (hfirst : ∀ a' b', a ++ sub ++ b = a' ++ sub ++ b' → a.length ≤ a'.length) :
    index sub (a ++ sub ++ b) = some a.length := by
  induction a with
  | nil =>
    cases sub with
    | nil => exact absurd rfl hs
    | cons x r =>
      show index (x :: r) (x :: (r ++ b)) = some 0
      rw [index, if_pos]
      exact List.isPrefixOf_iff_prefix.2 ⟨b, rfl⟩
  | cons c cs ih =>
    show index sub (c :: (cs ++ sub ++ b)) = some (cs.length + 1)
    rw [index, if_neg]
    · rw [ih]
      · rfl
      · intro a' b' e
        have := hfirst (c :: a') b' (by rw [List.cons_append, List.cons_append, e]; rfl)
        simpa using this
    · intro hp
      obtain ⟨t, ht⟩ := List.isPrefixOf_iff_prefix.1 hp
      have := hfirst [] t (by rw [List.nil_append, ht]; rfl)
      simp at this

/-- C112: started as a program, the process keeps its files below the working directory: whatever it is called, wherever it is. -/
theorem base_is_working_directory (project cur : Bytes) (args : List Bytes)
    (h : ∀ x, args[1]? = some x → ¬ ∃ t, x = ascii "-test" ++ t) : basePath project cur args = cur ++ ascii "/" := by
  unfold basePath
  rw [if_neg]
  rintro ⟨_, _, h3, h4⟩
  have h3' : 1 < args.length := h3
  have e : args[1]? = some args[1] := List.getElem?_eq_getElem h3'
  rw [e] at h4
  obtain ⟨t, ht⟩ := List.isPrefixOf_iff_prefix.1 h4
  exact h _ e ⟨t, ht.symm⟩

/-- C112: started by the test tool anywhere below the project's directory, it uses the project's directory: the path up to the first
occurrence of the name. -/
theorem test_base_partial (project a b arg : Bytes) (name : Bytes) (rest : List Bytes) (hp : project ≠ []) (ha : a ≠ [])
    (hfirst : ∀ a' b', a ++ project ++ b = a' ++ project ++ b' → a.length ≤ a'.length) :
    basePath project (a ++ project ++ b) (name :: (ascii "-test" ++ arg) :: rest) = a ++ project ++ ascii "/" := by
  have hal : 0 < a.length := List.length_pos_iff.2 ha
  have hpl : 0 < project.length := List.length_pos_iff.2 hp
  unfold basePath
  rw [if_pos, index_first project hp a b hfirst]
  · obtain ⟨n, hn⟩ : ∃ n, a.length = n + 1 := ⟨a.length - 1, by omega⟩
    rw [hn]
    simp only
    rw [← hn, List.append_assoc a, List.take_left]
  · refine ⟨by omega, ?_, by simp, ?_⟩
    · simp only [List.length_append]; omega
    · exact List.isPrefixOf_iff_prefix.2 ⟨arg, rfl⟩

/-- C112 fails: with an argument starting with `-test` and a working directory whose path does not hold the project's name, configuration
and logs are looked for below the root of the file system. -/
theorem test_outside_fails (project cur arg name : Bytes) (rest : List Bytes) (hp : project ≠ []) (hl : project.length < cur.length)
    (hno : ¬ Spec.Occurs project cur) : basePath project cur (name :: (ascii "-test" ++ arg) :: rest) = ascii "/" := by
  have hpl : 0 < project.length := List.length_pos_iff.2 hp
  unfold basePath
  rw [if_pos, index_none project cur hno]
  · rfl
  · exact ⟨by omega, hl, by simp, List.isPrefixOf_iff_prefix.2 ⟨arg, rfl⟩⟩

/-- C112 fails: if a directory further up has a name that starts with the project's name, the tests of the project use a directory that is
neither the project's nor any on the path. -/
theorem test_prefix_fails (project a suffix arg name : Bytes) (rest : List Bytes) (hp : project ≠ []) (ha : a ≠ [])
    (hfirst : ∀ a' b', a ++ project ++ (suffix ++ ascii "/" ++ project) = a' ++ project ++ b' → a.length ≤ a'.length) :
    basePath project (a ++ project ++ (suffix ++ ascii "/" ++ project)) (name :: (ascii "-test" ++ arg) :: rest) = a ++ project ++ ascii "/" ∧
    a ++ project ++ ascii "/" ≠ a ++ project ++ (suffix ++ ascii "/" ++ project) ++ ascii "/" := by
  refine ⟨test_base_partial project a _ arg name rest hp ha hfirst, fun h => ?_⟩
  have := congrArg List.length h
  have hpl : 0 < project.length := List.length_pos_iff.2 hp
  simp only [List.length_append] at this
  omega

example : basePath (ascii "msc_server") (ascii "/srv/gosms/msc_server") [ascii "./gosmc"] = ascii "/srv/gosms/msc_server/" := by decide

example : basePath (ascii "msc_server") (ascii "/srv/msc_server/server") [ascii "x", ascii "-test.v"] = ascii "/srv/msc_server/" := by decide

example : basePath (ascii "msc_server") (ascii "/srv/msc_server_old/msc_server") [ascii "x", ascii "-test.v"] = ascii "/srv/msc_server/" := by
  decide

example : basePath (ascii "msc_client") (ascii "/home/user/sms") [ascii "x", ascii "-testing"] = ascii "/" := by decide

end Gosms.Startup
