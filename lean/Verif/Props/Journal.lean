import Verif.Model.Journal
import Verif.Props.ClientResults
import Verif.Props.Startup

/-!
# C105: what was sent ends up in the journal, once
-/

namespace Gosms.Journal
open Gosms.Client (Result Owned)

/-! ## Specification -/

/-- The indices of the results in the journal. -/
def Spec.journaled (s : State) : List Nat := s.journal.map (·.1)

/-- The cleaner visits a key at most once, and has the journal's handler. -/
def Spec.Proper : Step → Prop
  | .client (.cleanQueries order handler _ _) => order.Nodup ∧ handler = true
  | _ => True

/-- Nothing goes wrong: no shutdown, no failing insertion. -/
def Spec.Fine : Step → Prop
  | .release => False
  | .insert _ stop => stop = none
  | .client _ => True

theorem run_snoc (steps : List Step) (x : Step) : run (steps ++ [x]) = step (run steps) x := by
  simp [run, List.foldl_append]

/-- The steps of the client in a history. -/
def clientSteps (steps : List Step) : List Client.Step := steps.filterMap fun x => match x with
  | .client y => some y
  | _ => none

theorem run_cl (steps : List Step) : (run steps).cl = Client.run (clientSteps steps) := by
  induction steps using snoc_induction with
  | nil => rfl
  | snoc steps x ih =>
    rw [run_snoc]
    cases x with
    | client y =>
      simp only [step, clientSteps, List.filterMap_append, List.filterMap_cons, List.filterMap_nil] at ih ⊢
      rw [ih, Client.run_snoc]
    | insert j stop =>
      have e : clientSteps (steps ++ [.insert j stop]) = clientSteps steps := by simp [clientSteps]
      rw [e, ← ih]
      simp only [step]
      split <;> rfl
    | release =>
      have e : clientSteps (steps ++ [.release]) = clientSteps steps := by simp [clientSteps]
      rw [e, ← ih]
      rfl

theorem proper_cl {steps : List Step} (h : ∀ x ∈ steps, Spec.Proper x) : ∀ y ∈ clientSteps steps, y.Proper := by
  intro y hy
  obtain ⟨x, hx, hxy⟩ := List.mem_filterMap.1 hy
  have := h x hx
  cases x with
  | client z =>
    injection hxy with hxy
    subst hxy
    cases z with
    | cleanQueries order handler d now => exact this.1
    | _ => trivial
  | insert j stop => cases hxy
  | release => cases hxy

theorem owned (steps : List Step) (h : ∀ x ∈ steps, Spec.Proper x) : Owned (run steps).cl := by
  rw [run_cl]; exact Client.owned_run _ (proper_cl h)

theorem handed_step (s : Client.State) (x : Client.Step) : s.handed <+: (Client.step s x).handed := by
  cases x with
  | send call phone seqs ok now =>
    have e : (Client.step s (.send call phone seqs ok now)).handed = s.handed := by
      simp only [Client.step, Client.onSend]; split <;> exact (Client.sendPackets_fields _ _ _ _).2.2.2.1
    rw [e]; exact List.prefix_refl _
  | save call id => exact List.prefix_refl _
  | resp r now => simp only [Client.step, Client.onResp]; split <;> exact List.prefix_refl _
  | report r now => simp only [Client.step, Client.onReport]; split <;> exact List.prefix_refl _
  | cleanQueries order handler d now => exact List.prefix_append _ _
  | cleanSeqs d now => exact List.prefix_refl _
  | cleanMsgs d now => exact List.prefix_refl _

/-- Waiting and journaled results are handed over ones, no two the same. -/
structure Inv (s : State) : Prop where
  nodup : (s.tasks.flatten ++ Spec.journaled s).Nodup
  handed : ∀ i ∈ s.tasks.flatten ++ Spec.journaled s, i ∈ s.cl.handed.flatten

theorem stored_sublist (batch : List Nat) (stop : Option Nat) : (stored batch stop).Sublist batch := by
  cases stop with
  | none => exact List.Sublist.refl _
  | some n => exact List.take_sublist _ _

theorem docs_fst (heap : List Result) (l : List Nat) :
    ((l.filterMap fun i => (heap[i]?).map fun r => (i, r)).map (·.1)).Sublist l := by
  induction l with
  | nil => exact List.Sublist.refl _
  | cons i l ih =>
    rw [List.filterMap_cons]
    cases heap[i]? with
    | none => exact ih.cons _
    | some r => exact ih.cons₂ _

theorem docs_all (heap : List Result) (l : List Nat) (h : ∀ i ∈ l, i < heap.length) :
    (l.filterMap fun i => (heap[i]?).map fun r => (i, r)).map (·.1) = l := by
  induction l with
  | nil => rfl
  | cons i l ih =>
    rw [List.filterMap_cons, List.getElem?_eq_getElem (h i (by simp))]
    simp only [Option.map_some, List.map_cons]
    rw [ih fun j hj => h j (by simp [hj])]

theorem flatten_erase {tasks : List (List Nat)} {j : Nat} {batch : List Nat} (h : tasks[j]? = some batch) :
    tasks.flatten.Perm (batch ++ (tasks.eraseIdx j).flatten) := by
  obtain ⟨hj, hb⟩ := List.getElem?_eq_some_iff.1 h
  subst hb
  have : tasks.Perm (tasks[j] :: tasks.eraseIdx j) := by
    rw [List.eraseIdx_eq_take_drop_succ]
    conv => lhs; rw [← List.take_append_drop j tasks, ← List.getElem_cons_drop hj]
    exact List.perm_middle
  exact this.flatten

theorem inv_step {s : State} (h : Inv s) (x : Step) (ho : Owned s.cl) (ho' : Owned (step s x).cl) : Inv (step s x) := by
  cases x with
  | client y =>
    obtain ⟨new, hn⟩ := handed_step s.cl y
    have e : (Client.step s.cl y).handed.drop s.cl.handed.length = new := by rw [← hn]; simp
    have hd := ho'.handedNodup
    simp only [step] at hd ⊢
    rw [e]
    rw [← hn, List.flatten_append, List.nodup_append] at hd
    cases hr : s.released with
    | true =>
      refine ⟨h.nodup, ?_⟩
      intro i hi
      rw [← hn, List.flatten_append]
      exact List.mem_append_left _ (h.handed i hi)
    | false =>
      simp only [Bool.false_eq_true, if_false]
      refine ⟨?_, ?_⟩
      · have p : ((s.tasks ++ new).flatten ++ Spec.journaled s).Perm ((s.tasks.flatten ++ Spec.journaled s) ++ new.flatten) := by
          rw [List.flatten_append, List.append_assoc, List.append_assoc]
          exact List.Perm.append_left _ List.perm_append_comm
        exact p.nodup_iff.2 (List.nodup_append.2 ⟨h.nodup, hd.2.1, fun a ha b hb he => hd.2.2 a (h.handed a ha) b hb he⟩)
      · intro i hi
        show i ∈ (Client.step s.cl y).handed.flatten
        rw [← hn, List.flatten_append]
        rcases List.mem_append.1 hi with hi | hi
        · rw [List.flatten_append] at hi
          rcases List.mem_append.1 hi with hi | hi
          · exact List.mem_append_left _ (h.handed i (List.mem_append_left _ hi))
          · exact List.mem_append_right _ hi
        · exact List.mem_append_left _ (h.handed i (List.mem_append_right _ hi))
  | insert j stop =>
    simp only [step]
    cases hj : s.tasks[j]? with
    | none => exact h
    | some batch =>
      simp only
      have p := flatten_erase hj
      have hs : (((stored batch stop).filterMap fun i => (s.cl.heap[i]?).map fun r => (i, r)).map (·.1)).Sublist batch :=
        (docs_fst _ _).trans (stored_sublist _ _)
      have q : (s.tasks.flatten ++ Spec.journaled s).Perm ((s.tasks.eraseIdx j).flatten ++ (Spec.journaled s ++ batch)) := by
        refine (p.append_right _).trans ?_
        rw [List.append_assoc]
        refine List.perm_append_comm.trans ?_
        rw [List.append_assoc]
      have sub : ((s.tasks.eraseIdx j).flatten ++ Spec.journaled
          { s with tasks := s.tasks.eraseIdx j, journal := s.journal ++ (stored batch stop).filterMap fun i => (s.cl.heap[i]?).map fun r => (i, r) }).Sublist
          ((s.tasks.eraseIdx j).flatten ++ (Spec.journaled s ++ batch)) := by
        refine List.Sublist.append (List.Sublist.refl _) ?_
        simp only [Spec.journaled, List.map_append]
        exact List.Sublist.append (List.Sublist.refl _) hs
      refine ⟨(q.nodup_iff.1 h.nodup).sublist sub, ?_⟩
      intro i hi
      exact h.handed i (q.mem_iff.2 (sub.subset hi))
  | release => exact ⟨h.nodup, h.handed⟩

theorem inv_run (steps : List Step) (h : ∀ x ∈ steps, Spec.Proper x) : Inv (run steps) := by
  induction steps using snoc_induction with
  | nil => exact ⟨by simp [run, Spec.journaled], by simp [run, Spec.journaled]⟩
  | snoc steps x ih =>
    have hi := ih fun y hy => h y (by simp [hy])
    have o2 := owned (steps ++ [x]) h
    rw [run_snoc] at o2 ⊢
    exact inv_step hi x (owned steps fun y hy => h y (by simp [hy])) o2

/-- C105, first part: in every history no message is in the journal twice, and only messages whose results were handed
over as expired are in it. -/
theorem journal_at_most_once (steps : List Step) (h : ∀ x ∈ steps, Spec.Proper x) :
    (Spec.journaled (run steps)).Nodup ∧ ∀ i ∈ Spec.journaled (run steps), i ∈ (run steps).cl.handed.flatten :=
  ⟨(List.nodup_append.1 (inv_run steps h).nodup).2.1,
   fun i hi => (inv_run steps h).handed i (List.mem_append_right _ hi)⟩

/-- C105, second part: unless the process shuts down or an insertion fails, every result handed over is in the journal
or waiting to be inserted; and once nothing is waiting, the journal holds exactly the results handed over (which are, by
C57, those of all expired queries). -/
theorem journal_complete_partial (steps : List Step) (h : ∀ x ∈ steps, Spec.Proper x) (hf : ∀ x ∈ steps, Spec.Fine x)
    (hrest : (run steps).tasks = []) : (Spec.journaled (run steps)).Perm (run steps).cl.handed.flatten := by
  have main : (run steps).released = false ∧
      ((run steps).tasks.flatten ++ Spec.journaled (run steps)).Perm (run steps).cl.handed.flatten := by
    clear hrest
    induction steps using snoc_induction with
    | nil => exact ⟨rfl, List.Perm.refl _⟩
    | snoc steps x ih =>
      obtain ⟨hr, hp⟩ := ih (fun y hy => h y (by simp [hy])) fun y hy => hf y (by simp [hy])
      have ho := owned steps fun y hy => h y (by simp [hy])
      have inv := inv_run steps fun y hy => h y (by simp [hy])
      rw [run_snoc]
      cases x with
      | client y =>
        obtain ⟨new, hn⟩ := handed_step (run steps).cl y
        have e : (Client.step (run steps).cl y).handed.drop (run steps).cl.handed.length = new := by rw [← hn]; simp
        simp only [step]
        rw [e, hr]
        refine ⟨rfl, ?_⟩
        simp only [Bool.false_eq_true, if_false]
        rw [← hn, List.flatten_append, List.flatten_append, List.append_assoc]
        refine (List.Perm.append_left _ List.perm_append_comm).trans ?_
        rw [← List.append_assoc]
        exact hp.append_right _
      | insert j stop =>
        have : stop = none := hf (.insert j stop) (by simp)
        subst this
        simp only [step]
        cases hj : (run steps).tasks[j]? with
        | none => exact ⟨hr, hp⟩
        | some batch =>
          refine ⟨hr, ?_⟩
          have hb : ∀ i ∈ batch, i < (run steps).cl.heap.length := by
            intro i hi
            have := (flatten_erase hj).mem_iff.2 (List.mem_append_left _ hi)
            exact ho.handedBound i (inv.handed i (List.mem_append_left _ this))
          simp only [Spec.journaled, stored, List.map_append, docs_all _ _ hb]
          refine List.Perm.trans ?_ hp
          refine List.Perm.trans ?_ ((flatten_erase hj).append_right _).symm
          simp only [Spec.journaled]
          rw [List.append_assoc]
          refine List.Perm.trans ?_ List.perm_append_comm
          rw [List.append_assoc]
      | release => exact absurd trivial (fun _ => hf .release (by simp))
  have := main.2
  rw [hrest] at this
  simpa using this

/-- The document of a message has its number, sequence number and time of sending. -/
theorem journal_values (steps : List Step) (i : Nat) (r : Result) (hi : (i, r) ∈ (run steps).journal) :
    ∃ r', (run steps).cl.heap[i]? = some r' ∧ r'.phone = r.phone ∧ r'.sequenceId = r.sequenceId ∧
      r'.sendTime = r.sendTime := by
  induction steps using snoc_induction with
  | nil => simp [run] at hi
  | snoc steps x ih =>
    rw [run_snoc] at hi ⊢
    cases x with
    | client y =>
      obtain ⟨r', h1, h2, h3, h4⟩ := ih hi
      obtain ⟨r2, h5, h6, h7, h8⟩ := Client.heap_step (run steps).cl y i r' h1
      exact ⟨r2, h5, by rw [h6, h2], by rw [h7, h3], by rw [h8, h4]⟩
    | insert j stop =>
      simp only [step] at hi ⊢
      cases hj : (run steps).tasks[j]? with
      | none => rw [hj] at hi; exact ih hi
      | some batch =>
        rw [hj] at hi
        rcases List.mem_append.1 hi with hi | hi
        · exact ih hi
        · obtain ⟨k, _, hk⟩ := List.mem_filterMap.1 hi
          obtain ⟨r2, h1, h2⟩ := Option.map_eq_some_iff.1 hk
          injection h2 with h3 h4
          subst h3; subst h4
          exact ⟨r2, h1, rfl, rfl, rfl⟩
    | release => exact ih hi

/-! ## What is lost -/

/-- A result that is in no task and not in the journal, and that can no longer get into a task, stays out. -/
theorem stays_out (pre post : List Step) (h : ∀ x ∈ pre ++ post, Spec.Proper x) (i : Nat)
    (h1 : i ∉ (run pre).tasks.flatten) (h2 : i ∉ Spec.journaled (run pre))
    (h3 : i ∈ (run pre).cl.handed.flatten ∨ (run pre).released = true) :
    i ∉ Spec.journaled (run (pre ++ post)) := by
  have main : i ∉ (run (pre ++ post)).tasks.flatten ∧ i ∉ Spec.journaled (run (pre ++ post)) ∧
      (i ∈ (run (pre ++ post)).cl.handed.flatten ∨ (run (pre ++ post)).released = true) := by
    induction post using snoc_induction with
    | nil => rw [List.append_nil]; exact ⟨h1, h2, h3⟩
    | snoc post x ih =>
      obtain ⟨g1, g2, g3⟩ := ih fun y hy => h y (by
        rw [← List.append_assoc]; exact List.mem_append_left _ hy)
      have ho' := owned (pre ++ (post ++ [x])) h
      rw [← List.append_assoc, run_snoc] at ho' ⊢
      cases x with
      | client y =>
        obtain ⟨new, hn⟩ := handed_step (run (pre ++ post)).cl y
        have e : (Client.step (run (pre ++ post)).cl y).handed.drop (run (pre ++ post)).cl.handed.length = new := by
          rw [← hn]; simp
        have hd := ho'.handedNodup
        simp only [step] at hd ⊢
        rw [← hn, List.flatten_append, List.nodup_append] at hd
        rw [e]
        refine ⟨?_, g2, ?_⟩
        · rcases g3 with g3 | g3
          · split
            · exact g1
            · rw [List.flatten_append]
              intro hm
              rcases List.mem_append.1 hm with hm | hm
              · exact g1 hm
              · exact hd.2.2 i g3 i hm rfl
          · rw [if_pos g3]; exact g1
        · rcases g3 with g3 | g3
          · left; rw [← hn, List.flatten_append]; exact List.mem_append_left _ g3
          · exact .inr g3
      | insert j stop =>
        simp only [step]
        cases hj : (run (pre ++ post)).tasks[j]? with
        | none => exact ⟨g1, g2, g3⟩
        | some batch =>
          have p := flatten_erase hj
          refine ⟨?_, ?_, g3⟩
          · intro hm; exact g1 (p.mem_iff.2 (List.mem_append_right _ hm))
          · simp only [Spec.journaled, List.map_append]
            intro hm
            rcases List.mem_append.1 hm with hm | hm
            · exact g2 hm
            · have := ((docs_fst _ _).trans (stored_sublist _ _)).subset hm
              exact g1 (p.mem_iff.2 (List.mem_append_left _ this))
      | release => exact ⟨g1, g2, .inr rfl⟩
  exact main.2.1

/-- C105 fails when an insertion fails: whatever happens later, no message of the batch gets into the journal, and no
query finds it either. -/
theorem failed_insertion_fails (pre post : List Step) (j : Nat) (batch : List Nat)
    (h : ∀ x ∈ pre ++ .insert j (some 0) :: post, Spec.Proper x) (hj : (run pre).tasks[j]? = some batch) (i : Nat) (hi : i ∈ batch) :
    i ∉ Spec.journaled (run (pre ++ .insert j (some 0) :: post)) ∧
    ∀ id l, Client.query (run (pre ++ .insert j (some 0) :: post)).cl id = .results l → i ∉ l := by
  have hpre : ∀ x ∈ pre, Spec.Proper x := fun x hx => h x (by simp [hx])
  have inv := inv_run pre hpre
  have p := flatten_erase hj
  have hmem : i ∈ (run pre).tasks.flatten := p.mem_iff.2 (List.mem_append_left _ hi)
  have hhand := inv.handed i (List.mem_append_left _ hmem)
  have e : run (pre ++ [.insert j (some 0)]) = { run pre with tasks := (run pre).tasks.eraseIdx j } := by
    rw [run_snoc]; simp [step, hj, stored]
  have hn := inv.nodup
  rw [List.nodup_append] at hn
  have eq : pre ++ .insert j (some 0) :: post = (pre ++ [.insert j (some 0)]) ++ post := by simp
  have out1 : i ∉ ((run pre).tasks.eraseIdx j).flatten := by
    intro hm
    have := (p.nodup_iff.1 hn.1)
    rw [List.nodup_append] at this
    exact this.2.2 i hi i hm rfl
  constructor
  · rw [eq]
    apply stays_out _ _ (by rw [← eq]; exact h)
    · rw [e]; exact out1
    · rw [e]
      intro hm
      exact hn.2.2 i hmem i hm rfl
    · left; rw [e]; exact hhand
  · -- handed over results are never in a query
    have hh : i ∈ (run (pre ++ .insert j (some 0) :: post)).cl.handed.flatten := by
      have mono : ∀ post : List Step, i ∈ (run (pre ++ post)).cl.handed.flatten := by
        intro post
        induction post using snoc_induction with
        | nil => rw [List.append_nil]; exact hhand
        | snoc post x ih =>
          rw [← List.append_assoc, run_snoc]
          cases x with
          | client y =>
            obtain ⟨new, hn⟩ := handed_step (run (pre ++ post)).cl y
            simp only [step]
            rw [← hn, List.flatten_append]
            exact List.mem_append_left _ ih
          | insert j stop => simp only [step]; split <;> exact ih
          | release => exact ih
      exact mono _
    intro id l hq
    have hown := owned _ h
    unfold Client.query at hq
    split at hq
    · cases hq
    · cases hq
    · rename_i l' _ hl
      injection hq with hq
      subst hq
      exact hown.handedQuery i hh _ _ (Client.SyncMap.mem_of_load hl)

/-- C105 fails at shutdown: what is still in a query when the pool is released never gets into the journal. -/
theorem shutdown_fails (pre post : List Step) (h : ∀ x ∈ pre ++ .release :: post, Spec.Proper x) (id : Int) (l : List Nat)
    (hq : Client.query (run pre).cl id = .results l) (i : Nat) (hi : i ∈ l) :
    i ∉ Spec.journaled (run (pre ++ .release :: post)) := by
  have hpre : ∀ x ∈ pre, Spec.Proper x := fun x hx => h x (by simp [hx])
  have inv := inv_run pre hpre
  have hown := owned pre hpre
  have hout : i ∉ (run pre).cl.handed.flatten := by
    unfold Client.query at hq
    split at hq
    · cases hq
    · cases hq
    · rename_i l' _ hl
      injection hq with hq
      subst hq
      exact fun hh => hown.handedQuery i hh _ _ (Client.SyncMap.mem_of_load hl) hi
  have eq : pre ++ .release :: post = (pre ++ [.release]) ++ post := by simp
  have e : run (pre ++ [.release]) = { run pre with released := true } := by rw [run_snoc]; rfl
  rw [eq]
  apply stays_out _ _ (by rw [← eq]; exact h)
  · rw [e]; exact fun hm => hout (inv.handed i (List.mem_append_left _ hm))
  · rw [e]; exact fun hm => hout (inv.handed i (List.mem_append_right _ hm))
  · right; rw [e]

/-- Two messages sent, expired after a minute, handed over and inserted: both are in the journal. Had the insertion
failed after the first, only one would be. -/
example :
    let h : List Step := [.client (.send 0 [49] [7, 8] true 0), .client (.save 0 100),
      .client (.cleanQueries [.i64 100] true 60 61)]
    (∀ x ∈ h ++ [.insert 0 none], Spec.Proper x ∧ Spec.Fine x) ∧
    Spec.journaled (run (h ++ [.insert 0 none])) = [0, 1] ∧ (run (h ++ [.insert 0 none])).tasks = [] ∧
    Spec.journaled (run (h ++ [.insert 0 (some 1)])) = [0] := by
  refine ⟨?_, by decide, by decide, by decide⟩
  intro x hx
  simp only [List.cons_append, List.nil_append, List.mem_cons, List.not_mem_nil, or_false] at hx
  rcases hx with rfl | rfl | rfl | rfl <;> simp [Spec.Proper, Spec.Fine]

/-- The journal can be started exactly if the database has an address, credentials are given and it answers; otherwise the
call panics. -/
theorem journal_starts_iff (c : Startup.Config) (db : Startup.Db) :
    start c db = some () ↔ c.str (ascii "Mongo.URI") ≠ [] ∧ db.user ≠ [] ∧ db.passwd ≠ [] ∧
      db.reachable (Startup.mongoUri (c.str (ascii "Mongo.URI")) db.user db.passwd) = true := by
  have key : ascii "Mongo" ++ ascii ".URI" = ascii "Mongo.URI" := by decide
  unfold start Startup.initDB Startup.setConnect
  rw [key]
  by_cases h1 : c.str (ascii "Mongo.URI") = []
  · simp [h1]
  · by_cases h2 : db.user = []
    · simp [h1, h2]
    · by_cases h3 : db.passwd = []
      · simp [h1, h2, h3]
      · by_cases h4 : db.reachable (Startup.mongoUri (c.str (ascii "Mongo.URI")) db.user db.passwd) = true
        · simp [h1, h2, h3, h4]
        · simp [h1, h2, h3, h4]

end Gosms.Journal
