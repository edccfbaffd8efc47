import Verif.Spec.ServerAlone
import Verif.Props.ServerIdle

/-!
# C144, C145: packets without body

The network library reads a length of 0 as everything (C41), so that a packet without body takes with it all that has arrived after it. SMGP answers to
heartbeats have no body. If such packets come alone, the way the library reads 0 makes no difference, so that what was proved for the other reading holds.
-/

namespace Gosms.ServerLife
open Gosms.Spec (raw Sendable arrived)
open Gosms.Spec.ServerStream (KeptUp Numbered)
open Gosms.Spec.ServerLife (segments written heartbeats AnswersHeartbeat Answering BareAlone ComesAlone Ordered TicksWithin)
open Gosms.Spec.ServerTraffic (loginCmd terminateCmd submitCmd seqOf packetSeq)
open Gosms.ServerTraffic (Env Draw answer)
open Gosms.ServerTicks (Settled)
open Gosms.Traffic (Packet receive decodeAndCheckHeader)

theorem decode_alone (p : Proto) (buf : Bytes) (h : BareAlone buf) : decodeAndCheckHeader true p buf = decodeAndCheckHeader false p buf := by
  unfold decodeAndCheckHeader
  by_cases h12 : buf.length < 12
  · rw [if_pos h12, if_pos h12]
  rw [if_neg h12, if_neg h12]
  have e1 : Traffic.peek true buf 12 = Traffic.peek false buf 12 := rfl
  have e2 : Traffic.discard true buf 12 = buf.drop 12 := rfl
  have e3 : Traffic.discard false buf 12 = buf.drop 12 := rfl
  rw [e1, e2, e3]
  have hh : (unpackHead (Traffic.peek false buf 12)).1 = rd32 (buf.take 4) := by
    show (unpackHead (buf.take 12)).1 = _
    unfold unpackHead
    rw [if_pos (by rw [List.length_take]; omega), List.take_take]
    rfl
  dsimp only
  by_cases hp : rd32 (buf.take 4) = 12
  · have hnil : buf.drop 12 = [] := List.drop_eq_nil_of_le (by have := h (by omega) hp; omega)
    have p1 : ∀ n, Traffic.peek true [] n = Traffic.peek false [] n := fun n => by unfold Traffic.peek; split <;> simp
    have p2 : ∀ n, Traffic.discard true [] n = Traffic.discard false [] n := fun n => by unfold Traffic.discard; split <;> simp
    rw [hnil, p1, p2]
  · by_cases hb : (unpackHead (Traffic.peek false buf 12)).1.toNat > 5120 ∨ (unpackHead (Traffic.peek false buf 12)).1.toNat < 12
    · rw [if_pos hb, if_pos hb]
    · have hn : (unpackHead (Traffic.peek false buf 12)).1.toNat - 12 ≠ 0 := by
        rw [hh] at hb ⊢
        have : (rd32 (buf.take 4)).toNat ≠ 12 := fun hc => hp (by rw [← UInt32.toNat_inj, hc]; rfl)
        omega
      have p1 : ∀ b n, n ≠ 0 → Traffic.peek true b n = Traffic.peek false b n := fun b n h => by unfold Traffic.peek; rw [if_neg h, if_neg h]
      have p2 : ∀ b n, n ≠ 0 → Traffic.discard true b n = Traffic.discard false b n := fun b n h => by unfold Traffic.discard; rw [if_neg h, if_neg h]
      rw [p1 _ _ hn, p2 _ _ hn]

theorem run_alone (gb : Bytes → Option Bytes) (e : Env) (t0 : Int) (steps : List Step) (h : ComesAlone gb e t0 steps) :
    run true gb e t0 steps = run false gb e t0 steps := by
  induction steps using snoc_induction with
  | nil => rfl
  | snoc l x ih =>
    have hl : ComesAlone gb e t0 l := fun a bytes d now b hab => h a bytes d now (b ++ [x]) (by rw [hab]; simp)
    rw [run_snoc, run_snoc, ← ih hl]
    cases x with
    | data bytes d now =>
      unfold step
      dsimp only
      rw [decode_alone e.proto _ (h l bytes d now [] rfl)]
    | _ => rfl

theorem alone_left {gb : Bytes → Option Bytes} {e : Env} {t0 : Int} {a b : List Step} (h : ComesAlone gb e t0 (a ++ b)) : ComesAlone gb e t0 a :=
  fun x bytes d now y hxy => h x bytes d now (y ++ b) (by rw [hxy]; simp)

theorem run_reading {z : Bool} {gb : Bytes → Option Bytes} {e : Env} {t0 : Int} {steps : List Step} (h : z = true → ComesAlone gb e t0 steps) :
    ∀ a b, steps = a ++ b → run z gb e t0 a = run false gb e t0 a := by
  intro a b hab
  cases z with
  | false => rfl
  | true => exact run_alone gb e t0 a (alone_left (b := b) (by rw [← hab]; exact h rfl))

theorem answering_reading {z : Bool} {gb : Bytes → Option Bytes} {e : Env} {t0 : Int} {steps : List Step} {qs : List Packet}
    (h : z = true → ComesAlone gb e t0 steps) (hans : Answering z gb e t0 qs steps) : Answering false gb e t0 qs steps := by
  intro i hi
  have := hans i hi
  rw [run_reading h (steps.take i) (steps.drop i) (List.take_append_drop ..).symm] at this
  exact this

/-- **C144, the part that holds, with packets without body** (such as SMGP answers to heartbeats): either the library reads 0 as nothing, or such packets come
alone. A client that answers every heartbeat is not cut off for that. -/
theorem answering_client_kept_alone_partial (z : Bool) (gb : Bytes → Option Bytes) (e : Env) (h16 : ∀ x, (e.md5 x).length = 16) (t0 : Int)
    (qs : List Packet) (hs : Sendable false e.proto qs) (steps : List Step) (hz : z = true → ComesAlone gb e t0 steps)
    (rest : Bytes) (hst : (segments steps).flatten ++ rest = qs.flatMap raw)
    (hwin : ∀ bytes d now, Step.data bytes d now ∈ steps → ∀ n ac, d.find n = some ac → 1 ≤ ac.mtWindowSize)
    (hone : (qs.filter fun q => q.cmd = loginCmd e.proto).length ≤ 1)
    (hans : Answering z gb e t0 qs steps)
    (hrest : ∀ a d b, steps = a ++ .tick d :: b → KeptUp qs (segments a) ∧ Settled gb e (run z gb e t0 a).tk)
    (f : Bytes) (hf : f ∈ written (run z gb e t0 steps)) (hcmd : Spec.ServerTraffic.command f = be32 (terminateCmd e.proto)) :
    ∃ s1 d s2, steps = s1 ++ .tick d :: s2 ∧ (run z gb e t0 s1).tk.lastUse + d.force < d.now := by
  have key := run_reading hz
  obtain ⟨s1, d, s2, h1, h2⟩ := answering_client_kept_partial false gb e h16 t0 qs hs steps rest hst hwin hone (answering_reading hz hans)
    (fun a d b hab => by rw [← key a _ hab]; exact hrest a d b hab) f (by rw [← key steps [] (by simp)]; exact hf) hcmd
  exact ⟨s1, d, s2, h1, by rw [key s1 _ h1]; exact h2⟩

/-- **C145, the part that holds, with packets without body**: see `answering_client_kept_alone_partial`. -/
theorem idle_client_kept_alone_partial (z : Bool) (gb : Bytes → Option Bytes) (e : Env) (h16 : ∀ x, (e.md5 x).length = 16) (hp : e.proto ≠ .sgip) (t0 T : Int)
    (qs : List Packet) (hs : Sendable false e.proto qs) (steps : List Step) (hz : z = true → ComesAlone gb e t0 steps)
    (rest : Bytes) (hst : (segments steps).flatten ++ rest = qs.flatMap raw)
    (hwin : ∀ bytes d now, Step.data bytes d now ∈ steps → ∀ n ac, d.find n = some ac → 1 ≤ ac.mtWindowSize)
    (hone : (qs.filter fun q => q.cmd = loginCmd e.proto).length ≤ 1)
    (hans : Answering z gb e t0 qs steps)
    (hrest : ∀ a d b, steps = a ++ .tick d :: b → KeptUp qs (segments a) ∧ Settled gb e (run z gb e t0 a).tk)
    (hord : Ordered t0 steps) (hT : TicksWithin T t0 steps)
    (hconf : ∀ d, Step.tick d ∈ steps → d.pool1 = true ∧ 60 * 1000000000 + T ≤ d.force)
    (f : Bytes) (hf : f ∈ written (run z gb e t0 steps)) (hcmd : Spec.ServerTraffic.command f = be32 (terminateCmd e.proto)) :
    ∃ s1 d s2, steps = s1 ++ .tick d :: s2 ∧ (run z gb e t0 s1).tk.base.stat ≠ .login ∧ (run z gb e t0 s1).tk.lastUse + d.force < d.now := by
  have key := run_reading hz
  obtain ⟨s1, d, s2, h1, h2⟩ := idle_client_kept_partial false gb e h16 hp t0 T qs hs steps rest hst hwin hone (answering_reading hz hans)
    (fun a d b hab => by rw [← key a _ hab]; exact hrest a d b hab) hord hT hconf f (by rw [← key steps [] (by simp)]; exact hf) hcmd
  exact ⟨s1, d, s2, h1, by rw [key s1 _ h1]; exact h2⟩

/-- **C141, C144, the part that holds, with packets without body**: every packet that has arrived is answered, once, with the server's ticks going on. -/
theorem life_answered_alone_partial (z : Bool) (gb : Bytes → Option Bytes) (e : Env) (h16 : ∀ x, (e.md5 x).length = 16) (t0 : Int)
    (qs : List Packet) (hs : Sendable false e.proto qs) (steps : List Step) (hz : z = true → ComesAlone gb e t0 steps)
    (rest : Bytes) (hst : (segments steps).flatten ++ rest = qs.flatMap raw) (hk : KeptUp qs (segments steps))
    (hwin : ∀ bytes d now, Step.data bytes d now ∈ steps → ∀ n ac, d.find n = some ac → 1 ≤ ac.mtWindowSize)
    (hone : (qs.filter fun q => q.cmd = loginCmd e.proto).length ≤ 1)
    (hc : (run z gb e t0 steps).tk.base.crashed = false) (ho : (run z gb e t0 steps).tk.base.isOpen = true)
    (hr : Settled gb e (run z gb e t0 steps).tk)
    (j : Nat) (q : Packet) (hq : qs[j]? = some q) (hj : j < arrived qs (segments steps) (segments steps).length) :
    ∃ s1 bytes d now s2 c, steps = s1 ++ .data bytes d now :: s2 ∧
      receive false e.proto (fun _ _ => false) {} (segments s1) = some c ∧ c.handed = qs.take j ∧
      ∀ f, answer e (run z gb e t0 s1).tk.base.ver q.cmd q.seq q.body d = some f →
        (q.cmd = submitCmd e.proto → d.allow = true → d.account ≠ none ∧ d.minMs < d.maxMs) →
        f ∈ written (run z gb e t0 steps) ∧
        ((e.proto = .sgip → 8 ≤ q.body.length) →
          (qs.filter fun q' => Numbered e.proto q.cmd (packetSeq e.proto q.seq q.body) q').length = 1 →
          ((written (run z gb e t0 steps)).filter fun g => Spec.ServerTraffic.command g = be32 (Spec.responseOf q.cmd) ∧
            seqOf e.proto g = packetSeq e.proto q.seq q.body) = [f]) := by
  have key := run_reading hz
  have hall := key steps [] (by simp)
  rw [hall] at hc ho hr ⊢
  obtain ⟨s1, bytes, d, now, s2, c, h1, h2, h3, h4⟩ := life_answered_partial false gb e h16 t0 qs hs steps rest hst hk hwin hone hc ho hr j q hq hj
  exact ⟨s1, bytes, d, now, s2, c, h1, h2, h3, by rw [key s1 _ h1]; exact h4⟩

/-! ## An SMGP client whose answers have no body -/

def smgpEnv : Env := { proto := .smgp, md5 := fun _ => List.replicate 16 7 }
def smgpDraw : Draw := { find := fun _ => some { clientId := List.replicate 8 65, version := 0x30, maxConns := 1, mtWindowSize := 1 } }
def smgpLogin : Packet := ⟨1, 1, [65, 65, 65, 65, 65, 65, 65, 65] ++ List.replicate 16 7 ++ [2, 0, 0, 0, 1, 0x30]⟩
def smgpAnswer (n : UInt32) : Packet := ⟨0x80000004, n, []⟩
/-- A login, and nothing more for five minutes but answers to the heartbeats, the second of them in two pieces. -/
def smgpIdle : List Step :=
  [.data (raw smgpLogin) smgpDraw 0, .run 0 1, .run 0 1, .loop 1] ++
  [.tick { now := sec 100, force := sec 160 }, .task 0 { now := sec 100, seq := 21 }, .loop (sec 100),
   .data (raw (smgpAnswer 21)) smgpDraw (sec 101), .run 0 (sec 101), .run 0 (sec 101)] ++
  [.tick { now := sec 200, force := sec 160 }, .task 0 { now := sec 200, seq := 22 }, .loop (sec 200),
   .data ((raw (smgpAnswer 22)).take 5) smgpDraw (sec 201), .data ((raw (smgpAnswer 22)).drop 5) smgpDraw (sec 201), .run 0 (sec 201), .run 0 (sec 201)] ++
  [.tick { now := sec 300, force := sec 160 }, .task 0 { now := sec 300, seq := 23 }, .loop (sec 300)]
def smgpQs : List Packet := [smgpLogin, smgpAnswer 21, smgpAnswer 22]

/-- What holds at every arrival of a history, checked. -/
def atData (c : List Step → Bytes → Bool) (steps : List Step) : Bool :=
  (List.range steps.length).all fun i => match steps.drop i with
    | .data b _ _ :: _ => c (steps.take i) b
    | _ => true

theorem atData_spec {c : List Step → Bytes → Bool} {steps : List Step} (h : atData c steps = true) {a b : List Step} {bytes : Bytes} {d : Draw} {now : Int}
    (hs : steps = a ++ .data bytes d now :: b) : c a bytes = true := by
  unfold atData at h
  rw [List.all_eq_true] at h
  have := h a.length (by rw [hs, List.mem_range]; simp)
  rw [hs, List.drop_left, List.take_left] at this
  exact this

/-- Answering, as a check. -/
def smgpAnswers : Bool :=
  (List.range (smgpIdle.length + 1)).all fun i =>
    decide (Spec.ServerLife.answersArrived .smgp smgpQs (smgpIdle.take i) ≤ heartbeats .smgp (run true some smgpEnv 0 (smgpIdle.take i))) &&
    (!Spec.ServerLife.tickNext (smgpIdle.drop i) ||
      decide (heartbeats .smgp (run true some smgpEnv 0 (smgpIdle.take i)) ≤ Spec.ServerLife.answersArrived .smgp smgpQs (smgpIdle.take i)))

set_option maxRecDepth 20000 in
theorem smgp_demo : smgpAnswers = true ∧
    atTicks (fun a d =>
      let s := (run true some smgpEnv 0 a).tk
      (s.own.length == 0 && s.queue.length == 0 && s.base.tasks.length == 0) &&
      decide (∀ i, i ≤ (segments a).length → arrived smgpQs (segments a) (segments a).length - arrived smgpQs (segments a) i ≤ (segments a).length - i) &&
      decide (s.base.stat = .login) && decide (d.pool1 = true ∧ sec 160 ≤ d.force) &&
      (decide (d.now ≤ 0 + sec 100) || a.any fun | .tick d1 => decide (d.now ≤ d1.now + sec 100) | _ => false)) smgpIdle = true ∧
    atData (fun a b => decide (BareAlone ((run true some smgpEnv 0 a).buffer ++ b))) smgpIdle = true ∧
    ((written (run true some smgpEnv 0 smgpIdle)).map fun f => (Spec.ServerTraffic.command f, seqOf .smgp f)) =
      [(be32 0x80000001, be32 1), (be32 4, be32 21), (be32 4, be32 22), (be32 4, be32 23)] ∧
    (segments smgpIdle).flatten = smgpQs.flatMap raw := by
  refine ⟨?_, ?_, ?_, ?_, ?_⟩ <;> decide +kernel

/-- The theorem applied to that history: no termination is written. -/
example : ∀ f ∈ written (run true some smgpEnv 0 smgpIdle), Spec.ServerTraffic.command f ≠ be32 (terminateCmd .smgp) := by
  obtain ⟨h1, h2, h3, _, h5⟩ := smgp_demo
  intro f hf hcmd
  have ht : ∀ a d b, smgpIdle = a ++ .tick d :: b → _ := fun a d b hs => atTicks_spec (a := a) (b := b) (d := d) h2 hs
  simp only [Bool.and_eq_true, decide_eq_true_eq, beq_iff_eq] at ht
  refine (fun ⟨s1, d, s2, hs, hn, _⟩ => hn (ht s1 d s2 hs).1.1.2 :
    (∃ s1 d s2, smgpIdle = s1 ++ .tick d :: s2 ∧ (run true some smgpEnv 0 s1).tk.base.stat ≠ .login ∧
      (run true some smgpEnv 0 s1).tk.lastUse + d.force < d.now) → False) ?_
  refine idle_client_kept_alone_partial true some smgpEnv (by simp [smgpEnv]) (by decide) 0 (sec 100) smgpQs ?_ smgpIdle
    (fun _ a bytes d now b hs => of_decide_eq_true (atData_spec h3 hs)) [] (by simpa using h5) (demo_windows (by decide +kernel) ?_) (by decide +kernel) ?_
    (fun a d b hs => ⟨(ht a d b hs).1.1.1.2, ServerTicks.settled_of_empty (ht a d b hs).1.1.1.1.1.1 (ht a d b hs).1.1.1.1.1.2 (ht a d b hs).1.1.1.1.2⟩)
    (by decide +kernel) ?_ ?_ f hf hcmd
  · intro q hq
    simp only [smgpQs, List.mem_cons, List.not_mem_nil, or_false] at hq
    rcases hq with rfl | rfl | rfl <;> refine ⟨?_, ?_, ?_⟩ <;> decide +kernel
  · intro bytes d now hm n
    simp only [smgpIdle, List.cons_append, List.nil_append, List.mem_cons, List.not_mem_nil, or_false, reduceCtorEq, false_or, Step.data.injEq] at hm
    rcases hm with ⟨_, rfl, _⟩ | ⟨_, rfl, _⟩ | ⟨_, rfl, _⟩ | ⟨_, rfl, _⟩ <;> rfl
  · intro i hi
    have := h1
    unfold smgpAnswers at this
    rw [List.all_eq_true] at this
    have := this i (by rw [List.mem_range]; omega)
    rw [Bool.and_eq_true, Bool.or_eq_true] at this
    refine ⟨of_decide_eq_true this.1, fun ht => ?_⟩
    rcases this.2 with h' | h'
    · rw [ht] at h'; cases h'
    · exact of_decide_eq_true h'
  · intro a d b hs
    have := (ht a d b hs).2
    rw [Bool.or_eq_true, List.any_eq_true] at this
    rcases this with h | ⟨x, hx, h⟩
    · exact .inl (of_decide_eq_true h)
    · right
      obtain ⟨a1, a2, rfl⟩ := List.mem_iff_append.1 hx
      cases x with
      | tick d1 => exact ⟨a1, d1, a2, rfl, of_decide_eq_true h⟩
      | _ => cases h
  · intro d hd
    obtain ⟨a, b, hs⟩ := List.mem_iff_append.1 hd
    have := (ht a d b hs).1.2
    refine ⟨this.1, ?_⟩
    have h2 := this.2
    unfold sec at h2 ⊢
    omega

end Gosms.ServerLife
