import Verif.Model.ClientSelect
import Verif.Spec.ClientPool
import Verif.Props.ClientPool

/-!
# C107: goroutines that send at the same time, and carriers that do not answer
-/

namespace Gosms.ClientSelect
open Gosms.ClientPool

/-- The goroutine is between `Lock` and `Unlock`. -/
def Pc.inside : Pc → Prop
  | .scanning _ _ => True
  | .dialing _ _ _ => True
  | .panicked => True
  | _ => False

/-- What is known of a goroutine. -/
def PcOk (compile : Bytes → Option Regex) (conf : Config) : Pc → Prop
  | .scanning phone todo => ∃ pre, Spec.order = pre ++ todo ∧ ∀ i ∈ pre, Spec.serves compile conf.toConf phone i = false
  | .dialing phone i todo => conf.account i = true ∧
      ∃ pre, Spec.order = pre ++ i :: todo ∧ ∀ j ∈ pre, Spec.serves compile conf.toConf phone j = false
  | .chosen phone c => c = Spec.carrier compile conf.toConf phone
  | _ => True

structure Inv (compile : Bytes → Option Regex) (conf : Config) (s : State) : Prop where
  lock : ∀ n, (s.pc n).inside ↔ s.lock = some n
  made : Made compile conf.toConf s.made
  pcs : ∀ n, PcOk compile conf (s.pc n)
  nodup : s.dials.Nodup
  dialed : ∀ i ∈ s.dials, s.made i ≠ none ∨ ∃ n, s.pc n = .panicked ∨ ∃ phone todo, s.pc n = .dialing phone i todo

theorem run_snoc (compile : Bytes → Option Regex) (conf : Config) (steps : List Step) (x : Step) :
    run compile conf (steps ++ [x]) = step compile conf (run compile conf steps) x := by simp [run]

theorem run_append (compile : Bytes → Option Regex) (conf : Config) (a b : List Step) :
    run compile conf (a ++ b) = b.foldl (step compile conf) (run compile conf a) := by simp [run]

theorem goto_self (s : State) (n : Nat) (p : Pc) : (s.goto n p).pc n = p := by simp [State.goto]
theorem goto_ne (s : State) {n m : Nat} (p : Pc) (h : m ≠ n) : (s.goto n p).pc m = s.pc m := by simp [State.goto, h]

/-- A goroutine goes from outside to outside. -/
theorem inv_outside {compile conf s} (h : Inv compile conf s) (n : Nat) (p : Pc) (ho : ¬ (s.pc n).inside) (hi : ¬ p.inside)
    (hp : PcOk compile conf p) : Inv compile conf (s.goto n p) := by
  refine ⟨fun m => ?_, h.made, fun m => ?_, h.nodup, fun i hd => ?_⟩
  · by_cases hm : m = n
    · subst hm
      rw [goto_self]
      have := h.lock m
      exact ⟨fun x => absurd x hi, fun x => absurd (this.2 x) ho⟩
    · rw [goto_ne _ _ hm]; exact h.lock m
  · by_cases hm : m = n
    · subst hm; rw [goto_self]; exact hp
    · rw [goto_ne _ _ hm]; exact h.pcs m
  · rcases h.dialed i hd with hx | ⟨m, hm⟩
    · exact Or.inl hx
    · refine Or.inr ⟨m, ?_⟩
      have : m ≠ n := by
        rintro rfl
        rcases hm with hm | ⟨_, _, hm⟩ <;> exact ho (by rw [hm]; trivial)
      rw [goto_ne _ _ this]; exact hm

/-- The goroutine that holds the lock goes on, holding it, and dials nothing new. -/
theorem inv_inside {compile conf s} (h : Inv compile conf s) (n : Nat) (p : Pc) (ho : (s.pc n).inside) (hi : p.inside)
    (hp : PcOk compile conf p)
    (hd : ∀ i ∈ s.dials, (∃ phone todo, s.pc n = .dialing phone i todo) → s.made i ≠ none ∨ p = .panicked)
    (hpan : s.pc n ≠ .panicked) : Inv compile conf (s.goto n p) := by
  refine ⟨fun m => ?_, h.made, fun m => ?_, h.nodup, fun i hdi => ?_⟩
  · by_cases hm : m = n
    · subst hm
      rw [goto_self]
      exact ⟨fun _ => (h.lock m).1 ho, fun _ => hi⟩
    · rw [goto_ne _ _ hm]; exact h.lock m
  · by_cases hm : m = n
    · subst hm; rw [goto_self]; exact hp
    · rw [goto_ne _ _ hm]; exact h.pcs m
  · rcases h.dialed i hdi with hx | ⟨m, hm⟩
    · exact Or.inl hx
    · by_cases e : m = n
      · subst e
        rcases hm with hm | hm
        · exact absurd hm hpan
        · rcases hd i hdi hm with hx | hx
          · exact Or.inl hx
          · exact Or.inr ⟨m, Or.inl (by rw [goto_self]; exact hx)⟩
      · exact Or.inr ⟨m, by rw [goto_ne _ _ e]; exact hm⟩

/-- It releases the lock. -/
theorem inv_release {compile conf s} (h : Inv compile conf s) (n : Nat) (phone : Bytes) (c : Option Isp) (ho : (s.pc n).inside)
    (hp : c = Spec.carrier compile conf.toConf phone)
    (hd : ∀ i ∈ s.dials, (∃ phone todo, s.pc n = .dialing phone i todo) → s.made i ≠ none)
    (hpan : s.pc n ≠ .panicked) : Inv compile conf ({ s with lock := none }.goto n (.chosen phone c)) := by
  have hl := (h.lock n).1 ho
  refine ⟨fun m => ?_, h.made, fun m => ?_, h.nodup, fun i hdi => ?_⟩
  · by_cases hm : m = n
    · subst hm
      rw [goto_self]
      exact ⟨fun x => absurd x id, fun x => by cases x⟩
    · rw [goto_ne _ _ hm]
      refine ⟨fun x => ?_, fun x => by cases x⟩
      have := (h.lock m).1 x
      rw [hl] at this
      exact absurd (Option.some.inj this).symm hm
  · by_cases hm : m = n
    · subst hm; rw [goto_self]; exact hp
    · rw [goto_ne _ _ hm]; exact h.pcs m
  · rcases h.dialed i hdi with hx | ⟨m, hm⟩
    · exact Or.inl hx
    · by_cases e : m = n
      · subst e
        rcases hm with hm | hm
        · exact absurd hm hpan
        · exact Or.inl (hd i hdi hm)
      · exact Or.inr ⟨m, by rw [goto_ne _ _ e]; exact hm⟩

theorem find_split (p : Isp → Bool) (pre todo : List Isp) (i : Isp) (h : ∀ j ∈ pre, p j = false) (hi : p i = true) :
    (pre ++ i :: todo).find? p = some i := by
  rw [List.find?_append]
  have : pre.find? p = none := by
    rw [List.find?_eq_none]; intro j hj; rw [h j hj]; exact Bool.false_ne_true
  rw [this]
  simp [hi]

theorem inv_test {compile conf s} (h : Inv compile conf s) (n : Nat) (phone : Bytes) (i : Isp) (todo : List Isp)
    (f : Option Regex) (ho : (s.pc n).inside) (hpan : s.pc n ≠ .panicked) (hm : s.made i = some f)
    (hd : ∀ j ∈ s.dials, (∃ phone todo, s.pc n = .dialing phone j todo) → s.made j ≠ none)
    (hs : ∃ pre, Spec.order = pre ++ i :: todo ∧ ∀ j ∈ pre, Spec.serves compile conf.toConf phone j = false) :
    Inv compile conf (test s n phone i todo f) := by
  obtain ⟨pre, hpre, hno⟩ := hs
  obtain ⟨ha, hf⟩ := h.made i f hm
  cases f with
  | none => exact inv_inside h n .panicked ho trivial trivial (fun _ _ _ => Or.inr rfl) hpan
  | some re =>
    have e : test s n phone i todo (some re) = if re phone then { s with lock := none }.goto n (.chosen phone (some i)) else s.goto n (.scanning phone todo) := rfl
    rw [e]
    have hserves : Spec.serves compile conf.toConf phone i = re phone := by
      unfold Spec.serves; rw [ha, ← hf]; simp
    by_cases hr : re phone = true
    · rw [if_pos hr]
      refine inv_release h n phone (some i) ho ?_ hd hpan
      unfold Spec.carrier
      rw [hpre, find_split _ _ _ _ hno (by rw [hserves, hr])]
    · rw [if_neg hr]
      refine inv_inside h n _ ho trivial ⟨pre ++ [i], by rw [hpre]; simp, ?_⟩ (fun j hj hx => Or.inl (hd j hj hx)) hpan
      intro j hj
      rw [List.mem_append, List.mem_singleton] at hj
      rcases hj with hj | rfl
      · exact hno j hj
      · rw [hserves]; simpa using hr

theorem inv_step {compile conf s} (h : Inv compile conf s) (x : Step) : Inv compile conf (step compile conf s x) := by
  cases x with
  | call n phone =>
    unfold step
    dsimp only
    split
    · rename_i e; exact inv_outside h n _ (by rw [e]; exact id) id trivial
    · rename_i e; exact inv_outside h n _ (by rw [e]; exact id) id trivial
    · exact h
  | go n =>
    unfold step
    dsimp only
    split
    · rename_i phone e
      split
      · rename_i hl
        have hn : ∀ m, ¬ (s.pc m).inside := fun m hm => by rw [(h.lock m).1 hm] at hl; cases hl
        refine ⟨fun m => ?_, h.made, fun m => ?_, h.nodup, fun i hd => ?_⟩
        · by_cases hm : m = n
          · subst hm; rw [goto_self]; exact ⟨fun _ => rfl, fun _ => trivial⟩
          · rw [goto_ne _ _ hm]
            exact ⟨fun x => absurd x (hn m), fun x => absurd (Option.some.inj x).symm hm⟩
        · by_cases hm : m = n
          · subst hm; rw [goto_self]; exact ⟨[], rfl, fun i hi => by cases hi⟩
          · rw [goto_ne _ _ hm]; exact h.pcs m
        · rcases h.dialed i hd with hx | ⟨m, hm⟩
          · exact Or.inl hx
          · exfalso
            apply hn m
            rcases hm with hm | ⟨_, _, hm⟩ <;> rw [hm] <;> trivial
      · exact h
    · rename_i phone e
      have hpc := h.pcs n
      rw [e] at hpc
      obtain ⟨pre, hpre, hno⟩ := hpc
      refine inv_release h n phone none (by rw [e]; trivial) ?_ ?_ (by rw [e]; exact Pc.noConfusion)
      · symm
        unfold Spec.carrier
        rw [List.find?_eq_none, hpre, List.append_nil]
        intro j hj; rw [hno j hj]; exact Bool.false_ne_true
      · rintro i _ ⟨_, _, hx⟩; rw [e] at hx; cases hx
    · rename_i phone i todo e
      have hpc := h.pcs n
      rw [e] at hpc
      obtain ⟨pre, hpre, hno⟩ := hpc
      split
      · rename_i f hm
        refine inv_test h n phone i todo f (by rw [e]; trivial) (by rw [e]; exact Pc.noConfusion) hm ?_ ⟨pre, hpre, hno⟩
        rintro i _ ⟨_, _, hx⟩; rw [e] at hx; cases hx
      · rename_i hm
        split
        · rename_i ha
          have hni : i ∉ s.dials := by
            intro hi
            rcases h.dialed i hi with hx | ⟨m, hx⟩
            · exact hx hm
            · have hin : (s.pc m).inside := by rcases hx with hx | ⟨_, _, hx⟩ <;> rw [hx] <;> trivial
              have h1 := (h.lock m).1 hin
              have h2 := (h.lock n).1 (by rw [e]; trivial)
              rw [h1] at h2
              have : m = n := Option.some.inj h2
              subst this
              rw [e] at hx
              rcases hx with hx | ⟨_, _, hx⟩ <;> cases hx
          refine ⟨fun m => ?_, h.made, fun m => ?_, ?_, fun j hd => ?_⟩
          · by_cases hmn : m = n
            · subst hmn; rw [goto_self]
              exact ⟨fun _ => (h.lock m).1 (by rw [e]; trivial), fun _ => trivial⟩
            · rw [goto_ne _ _ hmn]; exact h.lock m
          · by_cases hmn : m = n
            · subst hmn; rw [goto_self]; exact ⟨ha, pre, hpre, hno⟩
            · rw [goto_ne _ _ hmn]; exact h.pcs m
          · have hnd : (s.dials ++ [i]).Nodup := by
              rw [List.nodup_append]
              exact ⟨h.nodup, by simp, fun a hx b hb => by rw [List.mem_singleton] at hb; subst hb; rintro rfl; exact hni hx⟩
            exact hnd
          · have hd' : j ∈ s.dials ++ [i] := hd
            rw [List.mem_append, List.mem_singleton] at hd'
            rcases hd' with hd' | rfl
            · rcases h.dialed j hd' with hx | ⟨m, hx⟩
              · exact Or.inl hx
              · refine Or.inr ⟨m, ?_⟩
                have : m ≠ n := by
                  rintro rfl
                  rw [e] at hx
                  rcases hx with hx | ⟨_, _, hx⟩ <;> cases hx
                rw [goto_ne _ _ this]; exact hx
            · exact Or.inr ⟨n, Or.inr ⟨phone, todo, goto_self _ _ _⟩⟩
        · rename_i ha
          refine inv_inside h n _ (by rw [e]; trivial) trivial ⟨pre ++ [i], by rw [hpre]; simp, ?_⟩ ?_ (by rw [e]; exact Pc.noConfusion)
          · intro j hj
            rw [List.mem_append, List.mem_singleton] at hj
            rcases hj with hj | rfl
            · exact hno j hj
            · unfold Spec.serves; rw [show conf.toConf.account j = false by simpa using ha]; rfl
          · rintro i _ ⟨_, _, hx⟩; rw [e] at hx; cases hx
    · exact h
  | dialed n panics =>
    unfold step
    dsimp only
    split
    · rename_i phone i todo e
      have hpc := h.pcs n
      rw [e] at hpc
      obtain ⟨ha, pre, hpre, hno⟩ := hpc
      have hin : (s.pc n).inside := by rw [e]; trivial
      have hnp : s.pc n ≠ .panicked := by rw [e]; exact Pc.noConfusion
      split
      · exact inv_inside h n .panicked hin trivial trivial (fun _ _ _ => Or.inr rfl) hnp
      · have h' : Inv compile conf { s with made := fun j => if j = i then some (compile (conf.segment i)) else s.made j } := by
          refine ⟨h.lock, ?_, fun m => ?_, h.nodup, fun j hd => ?_⟩
          · intro j f hj
            dsimp only at hj
            by_cases hji : j = i
            · subst hji; rw [if_pos rfl] at hj; exact ⟨ha, (Option.some.inj hj).symm⟩
            · rw [if_neg hji] at hj; exact h.made j f hj
          · exact h.pcs m
          · rcases h.dialed j hd with hx | hx
            · left; dsimp only; split
              · exact Option.some_ne_none _
              · exact hx
            · exact Or.inr hx
        refine inv_test h' n phone i todo _ hin hnp (if_pos rfl) ?_ ⟨pre, hpre, hno⟩
        rintro j _ ⟨_, _, hx⟩
        have hx' : s.pc n = _ := hx
        rw [e] at hx'
        cases hx'
        dsimp only
        rw [if_pos rfl]
        exact Option.some_ne_none _
    · exact h

theorem inv_run (compile : Bytes → Option Regex) (conf : Config) (steps : List Step) : Inv compile conf (run compile conf steps) := by
  induction steps using snoc_induction with
  | nil =>
    refine ⟨fun n => ⟨fun h => absurd h id, fun h => by cases h⟩, ?_, fun _ => trivial, List.nodup_nil, ?_⟩
    · intro i f h; cases h
    · intro i h; cases h
  | snoc steps x ih => rw [run_snoc]; exact inv_step ih x

/-- C107, the part that holds in every schedule, also with panics and with carriers that do not answer: a goroutine that comes to
an end has chosen the carrier of its number. (`Spec.carrier`: the first in the order CMPP, SGIP, SMGP that has an account and
whose pattern matches.) -/
theorem choice_any_schedule (compile : Bytes → Option Regex) (conf : Config) (steps : List Step) (n : Nat) (phone : Bytes)
    (c : Option Isp) (h : (run compile conf steps).pc n = .chosen phone c) : c = Spec.carrier compile conf.toConf phone := by
  have := (inv_run compile conf steps).pcs n
  rw [h] at this
  exact this

theorem goto_dials (s : State) (n : Nat) (p : Pc) : (s.goto n p).dials = s.dials := rfl

theorem test_dials (s : State) (n : Nat) (phone : Bytes) (i : Isp) (todo : List Isp) (f : Option Regex) :
    (test s n phone i todo f).dials = s.dials := by
  cases f with
  | none => rfl
  | some re => simp only [test]; split <;> rfl

/-- C107, the part that holds in every schedule: however many goroutines send at the same time, each carrier is dialed at
most once to make its pool, and only carriers with an account are. -/
theorem dialed_once (compile : Bytes → Option Regex) (conf : Config) (steps : List Step) :
    (run compile conf steps).dials.Nodup ∧ ∀ i ∈ (run compile conf steps).dials, conf.account i = true := by
  refine ⟨(inv_run compile conf steps).nodup, ?_⟩
  induction steps using snoc_induction with
  | nil => intro i h; cases h
  | snoc steps x ih =>
    rw [run_snoc]
    intro j hj
    cases x with
    | call n phone =>
      unfold step at hj; dsimp only at hj
      split at hj <;> exact ih j hj
    | dialed n panics =>
      unfold step at hj; dsimp only at hj
      split at hj
      · split at hj
        · exact ih j hj
        · rw [test_dials] at hj; exact ih j hj
      · exact ih j hj
    | go n =>
      unfold step at hj; dsimp only at hj
      split at hj
      · split at hj <;> exact ih j hj
      · exact ih j hj
      · split at hj
        · rw [test_dials] at hj; exact ih j hj
        · split at hj
          · rw [goto_dials] at hj
            dsimp only at hj
            rw [List.mem_append, List.mem_singleton] at hj
            rcases hj with hj | rfl
            · exact ih j hj
            · assumption
          · exact ih j hj
      · exact ih j hj

/-- A goroutine that stays inside keeps all others out. -/
theorem kept_out {compile conf} (m : Nat) (p : Pc) (hp : p = .panicked ∨ ∃ phone i todo, p = .dialing phone i todo)
    (more : List Step) (hmore : p = .panicked ∨ ∀ b, .dialed m b ∉ more) (s : State) (hi : Inv compile conf s) (hs : s.pc m = p) :
    (more.foldl (step compile conf) s).pc m = p ∧
    ∀ n, (∀ phone, s.pc n = .waiting phone → (more.foldl (step compile conf) s).pc n = .waiting phone) ∧
      ∀ phone c, (more.foldl (step compile conf) s).pc n = .chosen phone c → s.pc n = .chosen phone c := by
  induction more generalizing s with
  | nil => exact ⟨hs, fun n => ⟨fun _ h => h, fun _ _ h => h⟩⟩
  | cons x more ih =>
    have hin : (s.pc m).inside := by rw [hs]; rcases hp with rfl | ⟨_, _, _, rfl⟩ <;> trivial
    have hl := (hi.lock m).1 hin
    have hout : ∀ n, n ≠ m → ¬ (s.pc n).inside := by
      intro n hn h
      have := (hi.lock n).1 h
      rw [hl] at this
      exact hn (Option.some.inj this).symm
    have key : (step compile conf s x).pc m = p ∧ ∀ n, (∀ phone, s.pc n = .waiting phone → (step compile conf s x).pc n = .waiting phone) ∧
        ∀ phone c, (step compile conf s x).pc n = .chosen phone c → s.pc n = .chosen phone c := by
      have same : (s.pc m = p ∧ ∀ n, (∀ phone, s.pc n = .waiting phone → s.pc n = .waiting phone) ∧
        ∀ phone c, s.pc n = .chosen phone c → s.pc n = .chosen phone c) := ⟨hs, fun n => ⟨fun _ h => h, fun _ _ h => h⟩⟩
      have enter : ∀ k phone, k ≠ m → (∀ q, s.pc k ≠ .waiting q) → (((s.goto k (.waiting phone)).pc m = p) ∧
          ∀ n, (∀ q, s.pc n = .waiting q → (s.goto k (.waiting phone)).pc n = .waiting q) ∧
            ∀ q c, (s.goto k (.waiting phone)).pc n = .chosen q c → s.pc n = .chosen q c) := by
        intro k phone hk hw
        refine ⟨by rw [goto_ne _ _ (Ne.symm hk)]; exact hs, fun n => ?_⟩
        by_cases hn : n = k
        · subst hn
          rw [goto_self]
          exact ⟨fun q h => absurd h (hw q), fun q c h => by cases h⟩
        · rw [goto_ne _ _ hn]; exact ⟨fun _ h => h, fun _ _ h => h⟩
      cases x with
      | call k phone =>
        unfold step; dsimp only
        split
        · rename_i e
          refine enter k phone ?_ (fun q h => by rw [e] at h; cases h)
          rintro rfl; rw [e] at hin; exact hin
        · rename_i e
          refine enter k phone ?_ (fun q h => by rw [e] at h; cases h)
          rintro rfl; rw [e] at hin; exact hin
        · exact same
      | go k =>
        by_cases hk : k = m
        · subst hk
          unfold step; dsimp only
          rw [hs]
          rcases hp with rfl | ⟨_, _, _, rfl⟩ <;> exact same
        · have ho := hout k hk
          unfold step; dsimp only
          split
          · rw [hl, if_neg (by simp)]; exact same
          · rename_i e; rw [e] at ho; exact absurd trivial ho
          · rename_i e; rw [e] at ho; exact absurd trivial ho
          · exact same
      | dialed k b =>
        by_cases hk : k = m
        · subst hk
          unfold step; dsimp only
          rw [hs]
          rcases hp with rfl | ⟨_, _, _, rfl⟩
          · exact same
          · rcases hmore with h | h
            · cases h
            · exact absurd List.mem_cons_self (h b)
        · have ho := hout k hk
          unfold step; dsimp only
          split
          · rename_i e; rw [e] at ho; exact absurd trivial ho
          · exact same
    obtain ⟨h1, h2⟩ := key
    obtain ⟨h3, h4⟩ := ih (hmore.imp id fun h b hb => h b (List.mem_cons_of_mem _ hb)) _ (inv_step hi x) h1
    rw [List.foldl_cons]
    refine ⟨h3, fun n => ⟨fun phone h => (h4 n).1 phone ((h2 n).1 phone h), fun phone c h => (h2 n).2 phone c ((h4 n).2 phone c h)⟩⟩

/-- C107 fails: from the moment one goroutine dials a carrier for the first time until this comes to an end (there is no limit of
time for the carrier's answer to the login), no goroutine gets a session, whatever number it sends to, also for carriers that are
connected: what is waiting stays waiting, and who has chosen had chosen before. -/
theorem carriers_independent_fails (compile : Bytes → Option Regex) (conf : Config) (steps more : List Step) (m : Nat)
    (phone : Bytes) (i : Isp) (todo : List Isp) (h : (run compile conf steps).pc m = .dialing phone i todo)
    (hmore : ∀ b, .dialed m b ∉ more) (n : Nat) :
    (∀ q, (run compile conf steps).pc n = .waiting q → (run compile conf (steps ++ more)).pc n = .waiting q) ∧
    ∀ q c, (run compile conf (steps ++ more)).pc n = .chosen q c → (run compile conf steps).pc n = .chosen q c := by
  rw [run_append]
  exact (kept_out m _ (Or.inr ⟨phone, i, todo, rfl⟩) more (Or.inr hmore) _ (inv_run compile conf steps) h).2 n

/-- C107 fails: once a goroutine has panicked in here, no goroutine gets a session ever again. -/
theorem panic_ends_sending_fails (compile : Bytes → Option Regex) (conf : Config) (steps more : List Step) (m : Nat)
    (h : (run compile conf steps).pc m = .panicked) (n : Nat) :
    (∀ q, (run compile conf steps).pc n = .waiting q → (run compile conf (steps ++ more)).pc n = .waiting q) ∧
    ∀ q c, (run compile conf (steps ++ more)).pc n = .chosen q c → (run compile conf steps).pc n = .chosen q c := by
  rw [run_append]
  exact (kept_out m _ (Or.inl rfl) more (Or.inl rfl) _ (inv_run compile conf steps) h).2 n

/-- So with a CMPP pattern that does not compile, or a negative window for CMPP, or a carrier whose answer to the login makes the client
panic (C73), no number is ever sent to, whatever it is, after the first call. -/
theorem bad_carrier_ends_sending_fails (compile : Bytes → Option Regex) (conf : Config) (ha : conf.account .cmpp = true) (b : Bool)
    (hb : compile (conf.segment .cmpp) = none ∨ conf.negative .cmpp = true ∨ b = true) (first : Bytes) (more : List Step)
    (n : Nat) (q : Bytes) (c : Option Isp) :
    (run compile conf ([.call 0 first, .go 0, .go 0, .dialed 0 b] ++ more)).pc n ≠ .chosen q c := by
  intro h
  have e3 : run compile conf [.call 0 first, .go 0, .go 0] =
      ({ lock := some 0, dials := [.cmpp], pc := fun m => if m = 0 then .dialing first .cmpp [.sgip, .smgp] else .idle } : State) := by
    simp only [run, List.foldl_cons, List.foldl_nil, step, State.goto, ha, if_true]
    congr 1
    funext m
    by_cases hm : m = 0 <;> simp [hm]
  have e4 : run compile conf [.call 0 first, .go 0, .go 0, .dialed 0 b] =
      step compile conf (run compile conf [.call 0 first, .go 0, .go 0]) (.dialed 0 b) := run_snoc compile conf [.call 0 first, .go 0, .go 0] _
  rw [e3] at e4
  have hp : (run compile conf [.call 0 first, .go 0, .go 0, .dialed 0 b]).pc 0 = .panicked ∧
      ∀ m, m ≠ 0 → (run compile conf [.call 0 first, .go 0, .go 0, .dialed 0 b]).pc m = .idle := by
    rw [e4]
    simp only [step, ↓reduceIte]
    split
    · exact ⟨goto_self _ _ _, fun m hm => by rw [goto_ne _ _ hm]; simp [hm]⟩
    · rename_i hx
      have : compile (conf.segment .cmpp) = none := by
        rcases hb with hb | hb | hb
        · exact hb
        · rw [hb] at hx; simp at hx
        · rw [hb] at hx; simp at hx
      rw [this]
      simp only [test]
      exact ⟨goto_self _ _ _, fun m hm => by rw [goto_ne _ _ hm]; simp [hm]⟩
  have := (panic_ends_sending_fails compile conf _ more 0 hp.1 n).2 q c h
  by_cases hn : n = 0
  · subst hn; rw [hp.1] at this; cases this
  · rw [hp.2 n hn] at this; cases this

theorem test_made (s : State) (n : Nat) (phone : Bytes) (i : Isp) (todo : List Isp) (f : Option Regex) :
    (test s n phone i todo f).made = s.made := by
  cases f with
  | none => rfl
  | some re => simp only [test]; split <;> rfl

/-- The same for any carrier, after any history: when dialing a carrier with a pattern that does not compile or a negative window comes
to an end, or the login panics, nobody gets a session any more who has none by then. -/
theorem bad_dial_ends_sending_fails (compile : Bytes → Option Regex) (conf : Config) (steps more : List Step) (m : Nat) (phone : Bytes)
    (i : Isp) (todo : List Isp) (h : (run compile conf steps).pc m = .dialing phone i todo) (b : Bool)
    (hb : compile (conf.segment i) = none ∨ conf.negative i = true ∨ b = true) (n : Nat) (q : Bytes) (c : Option Isp)
    (hc : (run compile conf (steps ++ [.dialed m b] ++ more)).pc n = .chosen q c) :
    (run compile conf steps).pc n = .chosen q c := by
  have hs : ∀ k, (run compile conf (steps ++ [.dialed m b])).pc k = if k = m then .panicked else (run compile conf steps).pc k := by
    intro k
    have e : ∀ s : State, (∀ j, s.pc j = (run compile conf steps).pc j) →
        (s.goto m .panicked).pc k = if k = m then .panicked else (run compile conf steps).pc k := by
      intro s hs
      by_cases hk : k = m
      · subst hk; rw [goto_self, if_pos rfl]
      · rw [goto_ne _ _ hk, if_neg hk, hs]
    rw [run_snoc]
    unfold step; dsimp only
    rw [h]; dsimp only
    split
    · exact e _ fun _ => rfl
    · rename_i hx
      have : compile (conf.segment i) = none := by
        rcases hb with hb | hb | hb
        · exact hb
        · rw [hb] at hx; simp at hx
        · rw [hb] at hx; simp at hx
      rw [this]
      exact e _ fun _ => rfl
  have := (panic_ends_sending_fails compile conf _ more m (by rw [hs, if_pos rfl]) n).2 q c hc
  rw [hs] at this
  split at this
  · cases this
  · exact this

/-- What holds of every goroutine if carrier `i` cannot be passed. -/
def Before (i : Isp) : Pc → Prop
  | .scanning _ todo => i ∈ todo
  | .dialing _ j todo => i ∈ j :: todo
  | .chosen _ c => ∃ j, c = some j ∧ [j, i].Sublist Spec.order
  | _ => True

theorem before_goto {i : Isp} {s : State} (h : ∀ n, Before i (s.pc n)) (n : Nat) (p : Pc) (hp : Before i p) (m : Nat) :
    Before i ((s.goto n p).pc m) := by
  by_cases hm : m = n
  · subst hm; rw [goto_self]; exact hp
  · rw [goto_ne _ _ hm]; exact h m

theorem before_test {i : Isp} {s : State} (h : ∀ n, Before i (s.pc n)) (n : Nat) (phone : Bytes) (j : Isp) (todo : List Isp)
    (f : Option Regex) (hi : i ∈ j :: todo) (hf : f ≠ none → j ≠ i) (hpre : ∃ pre, Spec.order = pre ++ j :: todo) (m : Nat) :
    Before i ((test s n phone j todo f).pc m) := by
  cases f with
  | none => exact before_goto h n .panicked trivial m
  | some re =>
    have hne := hf (by simp)
    have hm : i ∈ todo := (List.mem_cons.1 hi).resolve_left (Ne.symm hne)
    simp only [test]
    split
    · refine before_goto (s := { s with lock := none }) h n (.chosen phone (some j)) ⟨j, rfl, ?_⟩ m
      obtain ⟨pre, e⟩ := hpre
      rw [e]
      exact ((List.singleton_sublist.2 hm).cons_cons j).trans (List.sublist_append_right pre _)
    · exact before_goto h n (.scanning phone todo) hm m

/-- C107, C58 fail: whatever is sent and in whatever order, if a carrier with an account has a pattern that does not compile or a
negative window, no call ever gets a carrier asked after it, nor the answer that there is none: only numbers of carriers before it
are sent to. -/
theorem bad_carrier_blocks_fails (compile : Bytes → Option Regex) (conf : Config) (i : Isp) (ha : conf.account i = true)
    (hb : compile (conf.segment i) = none ∨ conf.negative i = true) (steps : List Step) (n : Nat) (q : Bytes) (c : Option Isp)
    (h : (run compile conf steps).pc n = .chosen q c) : ∃ j, c = some j ∧ [j, i].Sublist [.cmpp, .sgip, .smgp] := by
  have hall : i ∈ ([.cmpp, .sgip, .smgp] : List Isp) := by cases i <;> decide
  have key : (∀ n, Before i ((run compile conf steps).pc n)) ∧ (conf.negative i = true → (run compile conf steps).made i = none) := by
    clear h
    induction steps using snoc_induction with
    | nil => exact ⟨fun _ => trivial, fun _ => rfl⟩
    | snoc steps x ih =>
      have hi := inv_run compile conf steps
      obtain ⟨ih, hmade⟩ := ih
      rw [run_snoc]
      have bad : ∀ f, (run compile conf steps).made i = some f → f = none := by
        intro f hf
        rcases hb with hb | hb
        · rw [(hi.made i f hf).2]; exact hb
        · rw [hmade hb] at hf; cases hf
      cases x with
      | call k phone =>
        unfold step; dsimp only
        split
        · exact ⟨before_goto ih k _ trivial, hmade⟩
        · exact ⟨before_goto ih k _ trivial, hmade⟩
        · exact ⟨ih, hmade⟩
      | go k =>
        have hp := hi.pcs k
        have hk := ih k
        unfold step; dsimp only
        split
        · split
          · exact ⟨before_goto (s := { run compile conf steps with lock := some k }) ih k _ hall, hmade⟩
          · exact ⟨ih, hmade⟩
        · rename_i e
          rw [e] at hk
          cases hk
        · rename_i phone j todo e
          rw [e] at hk hp
          obtain ⟨pre, hpre, _⟩ := hp
          split
          · rename_i f hf
            refine ⟨before_test ih k phone j todo f hk (fun hne hj => ?_) ⟨pre, hpre⟩, ?_⟩
            · subst hj; exact hne (bad f hf)
            · intro hn
              rw [test_made]
              exact hmade hn
          · rename_i hnone
            split
            · exact ⟨before_goto (s := { run compile conf steps with dials := _ }) ih k _ hk, hmade⟩
            · rename_i hacc
              refine ⟨before_goto ih k _ ((List.mem_cons.1 hk).resolve_left fun hj => ?_), hmade⟩
              subst hj; exact hacc ha
        · exact ⟨ih, hmade⟩
      | dialed k b =>
        have hp := hi.pcs k
        have hk := ih k
        unfold step; dsimp only
        split
        · rename_i phone j todo e
          rw [e] at hk hp
          obtain ⟨_, pre, hpre, _⟩ := hp
          split
          · exact ⟨before_goto ih k _ trivial, hmade⟩
          · rename_i hx
            have hji : compile (conf.segment j) ≠ none → j ≠ i := by
              intro hne hj
              subst hj
              rcases hb with hb | hb
              · exact hne hb
              · rw [hb] at hx; simp at hx
            refine ⟨before_test (s := { run compile conf steps with
              made := fun l => if l = j then some (compile (conf.segment j)) else (run compile conf steps).made l }) ih k phone j todo _ hk hji ⟨pre, hpre⟩, fun hn => ?_⟩
            rw [test_made]
            dsimp only
            rw [if_neg fun hj => ?_]
            · exact hmade hn
            · subst hj; rw [hn] at hx; simp at hx
        · exact ⟨ih, hmade⟩
  have := key.1 n
  rw [h] at this
  exact this

/-! ### Progress -/

/-- No window is negative, every usable pattern compiles. -/
def Good (compile : Bytes → Option Regex) (conf : Config) : Prop :=
  Spec.PatternsOk compile conf.toConf ∧ ∀ i, conf.negative i = false

theorem test_no_panic {s : State} {n : Nat} {phone : Bytes} {i : Isp} {todo : List Isp} {f : Option Regex} (hf : f ≠ none)
    (h : ∀ m, s.pc m ≠ .panicked) (m : Nat) : (test s n phone i todo f).pc m ≠ .panicked := by
  cases f with
  | none => exact absurd rfl hf
  | some re =>
    simp only [test]
    by_cases hm : m = n
    · subst hm; split <;> rw [goto_self] <;> exact Pc.noConfusion
    · split <;> rw [goto_ne _ _ hm] <;> exact h m

theorem no_panic {compile conf} (hg : Good compile conf) (steps : List Step) (hs : ∀ n, .dialed n true ∉ steps) (m : Nat) :
    (run compile conf steps).pc m ≠ .panicked := by
  induction steps using snoc_induction generalizing m with
  | nil => exact Pc.noConfusion
  | snoc steps x ih =>
    have ih := ih fun n h => hs n (List.mem_append_left _ h)
    have hi := inv_run compile conf steps
    rw [run_snoc]
    have go : ∀ (s : State) n p, p ≠ .panicked → (∀ m, s.pc m ≠ .panicked) → (s.goto n p).pc m ≠ .panicked := by
      intro s n p hp h
      by_cases hm : m = n
      · subst hm; rw [goto_self]; exact hp
      · rw [goto_ne _ _ hm]; exact h m
    cases x with
    | call n phone =>
      unfold step; dsimp only
      split
      · exact go _ _ _ Pc.noConfusion ih
      · exact go _ _ _ Pc.noConfusion ih
      · exact ih m
    | go n =>
      unfold step; dsimp only
      split
      · split
        · exact go _ _ _ Pc.noConfusion ih
        · exact ih m
      · exact go _ _ _ Pc.noConfusion ih
      · split
        · rename_i f hf
          obtain ⟨h1, h2⟩ := hi.made _ f hf
          exact test_no_panic (by rw [h2]; exact hg.1 _ h1) ih m
        · split
          · exact go _ _ _ Pc.noConfusion ih
          · exact go _ _ _ Pc.noConfusion ih
      · exact ih m
    | dialed n b =>
      cases b with
      | true => exact absurd (by simp) (hs n)
      | false =>
        unfold step; dsimp only
        split
        · rename_i phone i todo e
          rw [hg.2 i, if_neg (by simp)]
          have hpc := hi.pcs n
          rw [e] at hpc
          refine test_no_panic (hg.1 _ hpc.1) ?_ m
          exact ih
        · exact ih m

/-- The steps by which goroutine `n` goes on, its dialing coming to an end without a panic. -/
def Own (n : Nat) (more : List Step) : Prop := ∀ x ∈ more, x = .go n ∨ x = .dialed n false

theorem finish_test {compile conf} (hg : Good compile conf) (n : Nat) (phone : Bytes) (i : Isp) (todo : List Isp) (s : State)
    (f : Option Regex) (hf : f ≠ none)
    (ih : ∀ s : State, Inv compile conf s → s.pc n = .scanning phone todo → ∃ more, Own n more ∧
      (∃ c, (more.foldl (step compile conf) s).pc n = .chosen phone c) ∧ (more.foldl (step compile conf) s).lock = none ∧
      ∀ m, m ≠ n → (more.foldl (step compile conf) s).pc m = s.pc m)
    (hi : Inv compile conf (test s n phone i todo f)) :
    ∃ more, Own n more ∧
      (∃ c, (more.foldl (step compile conf) (test s n phone i todo f)).pc n = .chosen phone c) ∧
      (more.foldl (step compile conf) (test s n phone i todo f)).lock = none ∧
      ∀ m, m ≠ n → (more.foldl (step compile conf) (test s n phone i todo f)).pc m = s.pc m := by
  cases f with
  | none => exact absurd rfl hf
  | some re =>
    have e : test s n phone i todo (some re) = if re phone then { s with lock := none }.goto n (.chosen phone (some i)) else s.goto n (.scanning phone todo) := rfl
    by_cases hr : re phone = true
    · rw [if_pos hr] at e
      rw [e]
      exact ⟨[], (by simp [Own]), ⟨_, goto_self _ _ _⟩, rfl, fun m hm => goto_ne _ _ hm⟩
    · rw [if_neg hr] at e
      rw [e] at hi ⊢
      obtain ⟨more, h1, h2, h3, h4⟩ := ih _ hi (goto_self _ _ _)
      exact ⟨more, h1, h2, h3, fun m hm => by rw [h4 m hm, goto_ne _ _ hm]⟩

theorem finish {compile conf} (hg : Good compile conf) (n : Nat) (phone : Bytes) (todo : List Isp) (s : State) (hi : Inv compile conf s)
    (hs : s.pc n = .scanning phone todo) :
    ∃ more, Own n more ∧ (∃ c, (more.foldl (step compile conf) s).pc n = .chosen phone c) ∧
      (more.foldl (step compile conf) s).lock = none ∧
      ∀ m, m ≠ n → (more.foldl (step compile conf) s).pc m = s.pc m := by
  induction todo generalizing s with
  | nil =>
    refine ⟨[.go n], by simp [Own], ?_⟩
    have e : [Step.go n].foldl (step compile conf) s = { s with lock := none }.goto n (.chosen phone none) := by
      simp only [List.foldl_cons, List.foldl_nil, step, hs]
    rw [e]
    exact ⟨⟨_, goto_self _ _ _⟩, rfl, fun m hm => goto_ne _ _ hm⟩
  | cons i todo ih =>
    cases hm : s.made i with
    | some f =>
      have e : step compile conf s (.go n) = test s n phone i todo f := by simp only [step, hs, hm]
      have hi' := inv_step hi (.go n)
      rw [e] at hi'
      obtain ⟨h1, h2⟩ := hi.made i f hm
      obtain ⟨more, h3, h4⟩ := finish_test hg n phone i todo s f (by rw [h2]; exact hg.1 _ h1) ih hi'
      refine ⟨.go n :: more, ?_, ?_⟩
      · intro x hx; rcases List.mem_cons.1 hx with rfl | hx
        · exact Or.inl rfl
        · exact h3 x hx
      · rw [List.foldl_cons, e]; exact h4
    | none =>
      by_cases ha : conf.account i = true
      · have e : step compile conf s (.go n) = { s with dials := s.dials ++ [i] }.goto n (.dialing phone i todo) := by
          simp only [step, hs, hm, ha, if_true]
        have hi' := inv_step hi (.go n)
        rw [e] at hi'
        obtain ⟨s1, hs1⟩ : ∃ s1, s1 = { s with dials := s.dials ++ [i] }.goto n (.dialing phone i todo) := ⟨_, rfl⟩
        rw [← hs1] at e hi'
        have hpc : s1.pc n = .dialing phone i todo := by rw [hs1]; exact goto_self _ _ _
        have hoth : ∀ m, m ≠ n → s1.pc m = s.pc m := by intro m h; rw [hs1]; exact goto_ne _ _ h
        have e2 : step compile conf s1 (.dialed n false) =
            test { s1 with made := fun j => if j = i then some (compile (conf.segment i)) else s1.made j } n phone i todo
              (compile (conf.segment i)) := by
          simp only [step, hpc, hg.2 i, Bool.or_self, Bool.false_eq_true, if_false]
        have hi2 := inv_step hi' (.dialed n false)
        rw [e2] at hi2
        obtain ⟨more, h3, h4, h5, h6⟩ := finish_test hg n phone i todo _ _ (hg.1 _ ha) ih hi2
        refine ⟨.go n :: .dialed n false :: more, ?_, ?_⟩
        · intro x hx
          rcases List.mem_cons.1 hx with rfl | hx
          · exact Or.inl rfl
          · rcases List.mem_cons.1 hx with rfl | hx
            · exact Or.inr rfl
            · exact h3 x hx
        · rw [List.foldl_cons, List.foldl_cons, e, e2]
          exact ⟨h4, h5, fun m h => by rw [h6 m h]; exact hoth m h⟩
      · have e : step compile conf s (.go n) = s.goto n (.scanning phone todo) := by
          simp only [step, hs, hm, if_neg ha]
        have hi' := inv_step hi (.go n)
        rw [e] at hi'
        obtain ⟨more, h3, h4, h5, h6⟩ := ih _ hi' (goto_self _ _ _)
        refine ⟨.go n :: more, ?_, ?_⟩
        · intro x hx; rcases List.mem_cons.1 hx with rfl | hx
          · exact Or.inl rfl
          · exact h3 x hx
        · rw [List.foldl_cons, e]
          exact ⟨h4, h5, fun m h => by rw [h6 m h, goto_ne _ _ h]⟩

/-- The goroutine inside, if any, comes out by its own steps. -/
theorem free_lock {compile conf} (hg : Good compile conf) (s : State) (hi : Inv compile conf s) (hp : ∀ m, s.pc m ≠ .panicked) :
    ∃ more : List Step, (∀ x ∈ more, ∃ m, s.lock = some m ∧ (x = .go m ∨ x = .dialed m false)) ∧
      (more.foldl (step compile conf) s).lock = none ∧
      ∀ n phone, s.pc n = .waiting phone → (more.foldl (step compile conf) s).pc n = .waiting phone := by
  cases hl : s.lock with
  | none => exact ⟨[], (by simp), hl, fun n phone h => h⟩
  | some m =>
    have hin := (hi.lock m).2 hl
    have fin : ∀ (s' : State) pre, pre.foldl (step compile conf) s = s' → Own m pre → Inv compile conf s' →
        (∀ n, n ≠ m → s'.pc n = s.pc n) → (∃ phone todo, s'.pc m = .scanning phone todo) →
        ∃ more : List Step, (∀ x ∈ more, ∃ k, some m = some k ∧ (x = .go k ∨ x = .dialed k false)) ∧
          (more.foldl (step compile conf) s).lock = none ∧
          ∀ n phone, s.pc n = .waiting phone → (more.foldl (step compile conf) s).pc n = .waiting phone := by
      rintro s' pre hpre hown hi' hoth ⟨phone, todo, hs'⟩
      obtain ⟨more, h1, _, h3, h4⟩ := finish hg m phone todo s' hi' hs'
      refine ⟨pre ++ more, ?_, ?_, ?_⟩
      · intro x hx
        rcases List.mem_append.1 hx with hx | hx
        · exact ⟨m, rfl, hown x hx⟩
        · exact ⟨m, rfl, h1 x hx⟩
      · rw [List.foldl_append, hpre]; exact h3
      · intro n q hq
        have hn : n ≠ m := by rintro rfl; rw [hq] at hin; exact hin
        rw [List.foldl_append, hpre, h4 n hn, hoth n hn]; exact hq
    cases hx : s.pc m with
    | idle => rw [hx] at hin; exact absurd hin id
    | waiting _ => rw [hx] at hin; exact absurd hin id
    | chosen _ _ => rw [hx] at hin; exact absurd hin id
    | panicked => exact absurd hx (hp m)
    | scanning phone todo => exact fin s [] rfl (by simp [Own]) hi (fun _ _ => rfl) ⟨phone, todo, hx⟩
    | dialing phone i todo =>
      have hpc := hi.pcs m
      rw [hx] at hpc
      have e2 : step compile conf s (.dialed m false) =
          test { s with made := fun j => if j = i then some (compile (conf.segment i)) else s.made j } m phone i todo
            (compile (conf.segment i)) := by
        simp only [step, hx, hg.2 i, Bool.or_self, Bool.false_eq_true, if_false]
      have hi2 := inv_step hi (.dialed m false)
      cases hc : compile (conf.segment i) with
      | none => exact absurd hc (hg.1 _ hpc.1)
      | some re =>
        rw [hc] at e2
        by_cases hr : re phone = true
        · have e3 : step compile conf s (.dialed m false) = { ({ s with made := fun j => if j = i then some (some re) else s.made j } : State) with lock := none }.goto m (.chosen phone (some i)) := by
            rw [e2]; simp only [test, if_pos hr]
          refine ⟨[.dialed m false], ?_, ?_, ?_⟩
          · intro x hx; rw [List.mem_singleton] at hx; exact ⟨m, rfl, Or.inr hx⟩
          · rw [List.foldl_cons, List.foldl_nil, e3]; rfl
          · intro n q hq
            have hn : n ≠ m := by rintro rfl; rw [hx] at hq; cases hq
            rw [List.foldl_cons, List.foldl_nil, e3, goto_ne _ _ hn]; exact hq
        · have e3 : step compile conf s (.dialed m false) = ({ s with made := fun j => if j = i then some (some re) else s.made j } : State).goto m (.scanning phone todo) := by
            rw [e2]; simp only [test, if_neg hr]
          refine fin _ [.dialed m false] rfl ?_ (by rw [List.foldl_cons, List.foldl_nil]; exact hi2) ?_ ⟨phone, todo, ?_⟩
          · intro x hx; rw [List.mem_singleton] at hx; exact Or.inr hx
          · intro n hn; rw [List.foldl_cons, List.foldl_nil, e3, goto_ne _ _ hn]
          · rw [List.foldl_cons, List.foldl_nil, e3, goto_self]

/-- C107, the part that holds: with patterns that compile, windows that are not negative and logins that do not panic, there is no deadlock.
In whatever state the goroutines are, each that waits gets the carrier of its number after finitely many steps of the one that
holds the lock and of its own, provided the dialing of these two comes to an end. -/
theorem sender_proceeds_partial (compile : Bytes → Option Regex) (conf : Config) (hg : Good compile conf) (steps : List Step)
    (hs : ∀ m, .dialed m true ∉ steps) (n : Nat) (phone : Bytes) (hn : (run compile conf steps).pc n = .waiting phone) :
    ∃ more : List Step, (∀ x ∈ more, ∃ m, (m = n ∨ (run compile conf steps).lock = some m) ∧ (x = .go m ∨ x = .dialed m false)) ∧
      (run compile conf (steps ++ more)).pc n = .chosen phone (Spec.carrier compile conf.toConf phone) := by
  have hi := inv_run compile conf steps
  obtain ⟨m1, h1, h2, h3⟩ := free_lock hg _ hi (no_panic hg steps hs)
  have hi1 : Inv compile conf (run compile conf (steps ++ m1)) := inv_run _ _ _
  have e1 : step compile conf (run compile conf (steps ++ m1)) (.go n) =
      { run compile conf (steps ++ m1) with lock := some n }.goto n (.scanning phone [.cmpp, .sgip, .smgp]) := by
    have hw : (run compile conf (steps ++ m1)).pc n = .waiting phone := by rw [run_append]; exact h3 n phone hn
    have hl : (run compile conf (steps ++ m1)).lock = none := by rw [run_append]; exact h2
    simp only [step, hw, hl, if_true]
  have hi2 := inv_step hi1 (.go n)
  obtain ⟨m2, h4, ⟨c, h5⟩, _, _⟩ := finish hg n phone [.cmpp, .sgip, .smgp] _ hi2 (by rw [e1]; exact goto_self _ _ _)
  have e : run compile conf (steps ++ (m1 ++ .go n :: m2)) =
      m2.foldl (step compile conf) (step compile conf (run compile conf (steps ++ m1)) (.go n)) := by
    rw [← List.append_assoc, run_append, List.foldl_cons]
  refine ⟨m1 ++ .go n :: m2, ?_, ?_⟩
  · intro x hx
    rcases List.mem_append.1 hx with hx | hx
    · obtain ⟨m, h6, h7⟩ := h1 x hx
      exact ⟨m, Or.inr h6, h7⟩
    · rcases List.mem_cons.1 hx with rfl | hx
      · exact ⟨n, Or.inl rfl, Or.inl rfl⟩
      · exact ⟨n, Or.inl rfl, h4 x hx⟩
  · rw [← e] at h5
    rw [h5, choice_any_schedule compile conf _ n phone c h5]

/-- Three carriers that take numbers by their first digit. -/
def demoCompile : Bytes → Option Regex := fun p => some fun n => n.head? == p.head?
def demoConf : Config := { account := fun _ => true, segment := fun i => match i with | .cmpp => [49] | .sgip => [50] | .smgp => [51] }

example : Good demoCompile demoConf := ⟨fun i _ => by simp [demoCompile], fun i => rfl⟩

/-- CMPP is connected by the first message; the second goes to SGIP, which does not answer; the third, again to a CMPP
number, waits. -/
example :
    let s := run demoCompile demoConf [.call 0 [49], .go 0, .go 0, .dialed 0 false, .call 1 [50], .go 1, .go 1, .go 1, .call 2 [49], .go 2]
    s.pc 0 = .chosen [49] (some .cmpp) ∧ s.pc 1 = .dialing [50] .sgip [.smgp] ∧ s.pc 2 = .waiting [49] ∧ s.dials = [.cmpp, .sgip] := by
  decide

/-- With a pattern of SGIP that does not compile a CMPP number is sent to, and the panic of the call for an SGIP number keeps the
lock: the next call, though for a CMPP number, waits. -/
example :
    let bad : Bytes → Option Regex := fun b => if b = [98] then none else demoCompile b
    let conf : Config := { demoConf with segment := fun i => if i = .sgip then [98] else demoConf.segment i }
    let s := run bad conf [.call 0 [49], .go 0, .go 0, .dialed 0 false, .call 1 [50], .go 1, .go 1, .go 1, .dialed 1 false, .call 2 [49], .go 2]
    s.pc 0 = .chosen [49] (some .cmpp) ∧ s.pc 1 = .panicked ∧ s.pc 2 = .waiting [49] ∧ conf.account .sgip = true ∧
    bad (conf.segment .sgip) = none := by
  decide

/-- When SGIP has answered, it goes on. -/
example :
    let s := run demoCompile demoConf ([.call 0 [49], .go 0, .go 0, .dialed 0 false, .call 1 [50], .go 1, .go 1, .go 1, .call 2 [49], .go 2] ++
      [.dialed 1 false, .go 2, .go 2])
    s.pc 1 = .chosen [50] (some .sgip) ∧ s.pc 2 = .chosen [49] (some .cmpp) ∧ s.lock = none := by
  decide

end Gosms.ClientSelect
