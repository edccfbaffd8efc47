import Verif.Props.ServerRest

/-!
# C80 with simulated texts: each counter counts the deliveries of its own kind
-/

namespace Gosms.ServerTicks

open ServerTraffic (Env After Draw answer verdict Accounts onPackets)
open Handlers Spec.ServerTraffic
open Spec.ServerTicks (heartbeat termination entry)

/-- A delivery that reports an accepted submit of a logged-in session, with the message id of its response. -/
def ReportOf (gb : Bytes → Option Bytes) (e : Env) (t0 : Int) (steps : List Step) (f : Bytes) : Prop :=
  ∃ a seq body d now b, steps = a ++ .base (.packet (submitCmd e.proto) seq body d) now :: b ∧ (run gb e t0 a).base.stat = .login ∧
    verdict d = .accepted ∧
    ((e.proto = .smgp → d.bcd.length = 10) → reportId (Cmpp.v3 (run gb e t0 a).base.ver) e.proto f = messageId e.proto d.id d.bcd)

/-- A delivery that simulates a text of a handset: one of the configured texts, for the account found at a tick. -/
def TextOf (gb : Bytes → Option Bytes) (e : Env) (t0 : Int) (steps : List Step) (f : Bytes) : Prop :=
  ∃ a d b i t c cli content number text, steps = a ++ .tick d :: b ++ .task i t :: c ∧ (run gb e t0 a).base.stat = .login ∧
    d.enable = true ∧ d.dice = false ∧ d.account = some cli ∧ content ∈ d.contents ∧ entry content number text ∧
    (e.proto = .cmpp ∧ (Cmpp.newDelivery cli (ascii "18600001111") text number cli.serviceId t.seq t.id).encode t.g = some f ∨
     e.proto = .smgp ∧ (Smgp.newDeliver gb cli (ascii "13300001111") number text t.seq t.bcd t.clock).encode = some f)

/-- Which of the two a written item is, if it is a delivery. -/
def tag : Item → Option (Bytes × Bool)
  | .reply x => if x.2.2 = .rpt then some (x.2.1, true) else none
  | .own f .dly => some (f, false)
  | .own _ _ => none

/-- C80, with simulated texts: the deliveries written are reports and simulated texts, and each of the two counters counts those of its
kind. -/
theorem counters_apart (gb : Bytes → Option Bytes) (e : Env) (h16 : ∀ x, (e.md5 x).length = 16) (t0 : Int) (steps : List Step) :
    ∃ kinds : List (Bytes × Bool),
      kinds.map Prod.fst = (frames (run gb e t0 steps)).filter (fun f => command f = be32 (deliverCmd e.proto)) ∧
      (∀ f, (f, true) ∈ kinds → ReportOf gb e t0 steps f) ∧ (∀ f, (f, false) ∈ kinds → TextOf gb e t0 steps f) ∧
      (run gb e t0 steps).base.rpt = UInt64.ofNat (kinds.filter fun k => k.2 = true).length ∧
      (run gb e t0 steps).dly = UInt64.ofNat (kinds.filter fun k => k.2 = false).length := by
  have hs := sim_run gb e t0 steps
  have hinv := ServerTraffic.inv_run_all e (answering gb e t0 steps)
  have hrep : ∀ x, Item.reply x ∈ (run gb e t0 steps).wire → x ∈ (ServerTraffic.run e (answering gb e t0 steps)).wire := by
    intro x hx
    rw [← hs.2, hs.1.wire]; exact List.mem_filterMap.2 ⟨_, hx, rfl⟩
  have hown : ∀ f x, Item.own f x ∈ (run gb e t0 steps).wire → (x = .dly ↔ command f = be32 (deliverCmd e.proto)) := by
    intro f x hx
    obtain ⟨lu, t, o, h⟩ := own_on_wire gb e t0 steps hx
    exact (own_command h).2.2.1
  have hreply : ∀ x, Item.reply x ∈ (run gb e t0 steps).wire → (x.2.2 = .rpt ↔ command x.2.1 = be32 (deliverCmd e.proto)) := by
    intro x hx
    obtain ⟨r, _, hg, hE⟩ := ServerTraffic.wire_entry h16 hinv (hrep x hx)
    exact ServerTraffic.entry_command hg hE
  refine ⟨(run gb e t0 steps).wire.filterMap tag, ?_, ?_, ?_, ?_, ?_⟩
  · unfold frames
    generalize (run gb e t0 steps).wire = w at hown hreply
    induction w with
    | nil => rfl
    | cons it w ih =>
      have ih := ih (fun f x hx => hown f x (List.mem_cons_of_mem _ hx)) (fun x hx => hreply x (List.mem_cons_of_mem _ hx))
      rw [List.map_cons, List.filter_cons, List.filterMap_cons]
      cases it with
      | reply x =>
        have hx := hreply x List.mem_cons_self
        show _ = if decide (command x.2.1 = be32 (deliverCmd e.proto)) = true then _ else _
        by_cases h : x.2.2 = .rpt
        · have ht : tag (.reply x) = some (x.2.1, true) := by simp [tag, h]
          rw [ht, if_pos (by simpa using hx.1 h)]; simp only [List.map_cons, ih]; rfl
        · have ht : tag (.reply x) = none := by simp [tag, h]
          rw [ht, if_neg (by simpa using fun hc => h (hx.2 hc))]; exact ih
      | own f a =>
        have hx := hown f a List.mem_cons_self
        show _ = if decide (command f = be32 (deliverCmd e.proto)) = true then _ else _
        by_cases h : a = .dly
        · subst h
          rw [if_pos (by simpa using hx.1 rfl)]; simp only [tag, List.map_cons, ih]; rfl
        · rw [if_neg (by simpa using fun hc => h (hx.2 hc))]
          cases a with
          | dly => exact absurd rfl h
          | beat => exact ih
          | close => exact ih
  · intro f hf
    obtain ⟨it, hit, ht⟩ := List.mem_filterMap.1 hf
    cases it with
    | own g a => cases a <;> simp [tag] at ht
    | reply x =>
      have hr : x.2.2 = .rpt := by
        by_cases h : x.2.2 = .rpt
        · exact h
        · simp [tag, h] at ht
      simp only [tag, hr, if_true, Option.some.injEq, Prod.mk.injEq, and_true] at ht
      subst ht
      have hx := hrep x hit
      have hmem : x.2.1 ∈ ServerTraffic.frames (ServerTraffic.run e (answering gb e t0 steps)) := List.mem_map.2 ⟨x, hx, rfl⟩
      obtain ⟨pre, post, hsplit⟩ := List.append_of_mem hmem
      obtain ⟨a', seq, body, d, b', h3, h4, _, _, h7, _, h9⟩ :=
        ServerTraffic.report_after_response e h16 _ pre post _ hsplit ((hreply x hit).1 hr)
      obtain ⟨a, now, b, h10, h11⟩ := project_packet gb e steps _ a' b' _ seq body d h3
      have ha : (run gb e t0 a).base = ServerTraffic.run e a' := by rw [(sim_run gb e t0 a).2, answering, h11]
      exact ⟨a, seq, body, d, now, b, h10, by rw [ha]; exact h4, h7, by rw [ha]; exact h9⟩
  · intro f hf
    obtain ⟨it, hit, ht⟩ := List.mem_filterMap.1 hf
    cases it with
    | reply x => simp only [tag] at ht; split at ht <;> simp at ht
    | own g x =>
      have hx : x = .dly ∧ g = f := by cases x <;> simp [tag] at ht ⊢; exact ht
      obtain ⟨rfl, rfl⟩ := hx
      obtain ⟨wp, wr, hwire⟩ := List.append_of_mem hit
      obtain ⟨a, d, b, i, t, c, o, h1, h2, h3, _⟩ := own_written gb e t0 steps hwire
      cases h3 with
      | cmpp cli number text _ hp hf =>
        cases h2 with
        | deliver _ content _ _ q1 q2 q3 q4 q5 q6 =>
          exact ⟨a, d, b, i, t, c, cli, content, number, text, h1, q1, q2, q3, q4, q5, q6, .inl ⟨hp, hf⟩⟩
      | smgp cli number text _ hp hf =>
        cases h2 with
        | deliver _ content _ _ q1 q2 q3 q4 q5 q6 =>
          exact ⟨a, d, b, i, t, c, cli, content, number, text, h1, q1, q2, q3, q4, q5, q6, .inr ⟨hp, hf⟩⟩
  · rw [hs.2, hinv.rpt, ← hs.2, hs.1.wire]
    congr 1
    generalize (run gb e t0 steps).wire = w
    induction w with
    | nil => rfl
    | cons it w ih =>
      rw [List.filterMap_cons]
      cases it with
      | reply x =>
        have e1 : replies (Item.reply x :: w) = x :: replies w := rfl
        rw [e1, List.filter_cons]
        by_cases h : x.2.2 = .rpt
        · simp [tag, h, ih]
        · simp [tag, h, ih]
      | own f a => rw [replies_own]; cases a <;> simp [tag, ih]
  · rw [(dly_inv gb e t0 steps).1]
    congr 1
    generalize (run gb e t0 steps).wire = w
    induction w with
    | nil => rfl
    | cons it w ih =>
      rw [List.filterMap_cons, List.filter_cons]
      cases it with
      | reply x =>
        by_cases h : x.2.2 = .rpt
        · simp [tag, h, isDly, ih]
        · simp [tag, h, isDly, ih]
      | own f a => cases a <;> simp [tag, isDly, ih]

/-- A run with a submit that is reported and a simulated text. -/
def bothSteps : List Step :=
  ServerTraffic.demoSteps.map (Step.base · 6) ++
  [.tick { now := 60, force := 600000000000, enable := true, account := some ServerTraffic.demoAccount, contents := [ascii "12_,_hi"] },
   .task 1 { now := 61, seq := 10, id := 5 }, .base .loop 62]

set_option maxRecDepth 20000 in
example : (run some ServerTraffic.demoEnv 0 bothSteps).base.rpt = 1 ∧ (run some ServerTraffic.demoEnv 0 bothSteps).dly = 1 ∧
    ((frames (run some ServerTraffic.demoEnv 0 bothSteps)).filter fun f => command f = be32 (deliverCmd .cmpp)).length = 2 := by
  refine ⟨?_, ?_, ?_⟩ <;> decide +kernel

end Gosms.ServerTicks
