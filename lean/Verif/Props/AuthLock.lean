import Verif.Model.AuthLock
import Verif.Props.Reload

/-!
# C130: looking accounts up while the database is read
-/

namespace Gosms.Spec.AuthLock
open Gosms.AuthLock

/-- The steps of a load that end it: `Next` gives no record, or one that does not decode. -/
def ends : Step → Bool
  | .next none => true
  | .next (some none) => true
  | _ => false

/-- Time does not get as far as `d`. -/
def before (d : Int) : Step → Bool
  | .pass t => decide (t < d)
  | _ => true

end Gosms.Spec.AuthLock

namespace Gosms.AuthLock
open Gosms.Auth

variable (uni : Bytes → Bytes) (rod : Int) (m : Cache)

theorem run_append (a b : List Step) : run uni rod m (a ++ b) = b.foldl (step uni rod) (run uni rod m a) := by
  rw [run, List.foldl_append]; rfl

theorem run_snoc (a : List Step) (x : Step) : run uni rod m (a ++ [x]) = step uni rod (run uni rod m a) x := by
  rw [run_append]; rfl

/-- C130: only a query that has succeeded in time makes lookups wait: whenever a load holds the lock (or is about to take it), its query returned without an error
before the deadline of the load, and no other load has begun since. -/
theorem lock_after_query (steps : List Step) (d : Int) (h : (run uni rod m steps).loader = .locking d ∨ (run uni rod m steps).loader = .reading d) :
    ∃ a b, steps = a ++ .found true :: b ∧ (run uni rod m a).loader = .finding d ∧ (run uni rod m a).now < d ∧
      ∀ b1 b2, b = b1 ++ b2 → (run uni rod m (a ++ .found true :: b1)).loader = .locking d ∨ (run uni rod m (a ++ .found true :: b1)).loader = .reading d := by
  induction steps using snoc_induction with
  | nil => rcases h with h | h <;> cases h
  | snoc l x ih =>
    have hnow := h
    rw [run_snoc] at h
    by_cases hp : (run uni rod m l).loader = .locking d ∨ (run uni rod m l).loader = .reading d
    · obtain ⟨a, b, h1, h2, h3, h4⟩ := ih hp
      refine ⟨a, b ++ [x], by rw [h1]; simp, h2, h3, fun b1 b2 hb => ?_⟩
      rcases List.eq_nil_or_concat b2 with rfl | ⟨b2', y, rfl⟩
      · rw [List.append_nil] at hb
        subst hb
        have : a ++ Step.found true :: (b ++ [x]) = l ++ [x] := by rw [h1]; simp
        rw [this]
        exact hnow
      · exact h4 b1 b2' (List.append_inj' (hb.trans (by simp : _ = (b1 ++ b2') ++ [y])) rfl).1
    · have hx : x = .found true ∧ (run uni rod m l).loader = .finding d ∧ (run uni rod m l).now < d := by
        generalize run uni rod m l = s at h hp
        cases x with
        | pass t => simp only [step] at h; split at h <;> exact absurd h hp
        | tick => simp only [step] at h; split at h <;> first | exact absurd h hp | (rcases h with h | h <;> cases h)
        | found ok =>
          simp only [step] at h
          split at h
          · rename_i d' hd'
            split at h
            · rename_i hk
              rcases h with h | h
              · obtain rfl : d' = d := by simpa using h
                exact ⟨by rw [hk.1], hd', hk.2⟩
              · cases h
            · rcases h with h | h <;> cases h
          · exact absurd h hp
        | lock =>
          simp only [step] at h
          split at h
          · rename_i d' hd'
            rcases h with h | h
            · cases h
            · obtain rfl : d' = d := by simpa using h
              exact absurd (.inl hd') hp
          · exact absurd h hp
        | next r =>
          simp only [step] at h
          split at h
          · rename_i d' hd'
            split at h
            · split at h <;> first | exact absurd h hp | (rcases h with h | h <;> cases h)
            · rcases h with h | h <;> cases h
          · exact absurd h hp
        | ask i isp cid => simp only [step] at h; split at h <;> exact absurd h hp
        | take i => simp only [step] at h; split at h <;> exact absurd h hp
      obtain ⟨rfl, h2, h3⟩ := hx
      refine ⟨l, [], rfl, h2, h3, fun b1 b2 hb => ?_⟩
      obtain ⟨rfl, rfl⟩ := List.append_eq_nil_iff.1 hb.symm
      exact hnow

/-- C130: a goroutine that looks an account up while no load is reading its records has the answer at its next step: the account the map holds. -/
theorem lookup_immediate_partial (steps : List Step) (i : Nat) (isp cid : Bytes) (hi : ∀ isp' cid', (run uni rod m steps).lookers i ≠ .waiting isp' cid')
    (hr : ∀ d, (run uni rod m steps).loader ≠ .reading d) :
    (run uni rod m (steps ++ [.ask i isp cid, .take i])).lookers i = .got (findByCid uni (run uni rod m steps).cache isp cid) := by
  rw [run_append]
  generalize run uni rod m steps = s at *
  show (step uni rod (step uni rod s (.ask i isp cid)) (.take i)).lookers i = _
  have h1 : step uni rod s (.ask i isp cid) = s.put i (.waiting isp cid) := by
    unfold step
    cases h : s.lookers i with
    | waiting a b => exact absurd h (hi _ _)
    | idle => simp [h]
    | got c => simp [h]
  rw [h1]
  have h2 : (s.put i (.waiting isp cid)).lookers i = .waiting isp cid := by simp [State.put]
  have h3 : (s.put i (.waiting isp cid)).loader = s.loader := rfl
  simp only [step, h2, h3]
  cases hl : s.loader with
  | reading d => exact absurd hl (hr d)
  | idle => simp [State.put]
  | finding d => simp [State.put]
  | locking d => simp [State.put]

/-- One step while a load is reading and its time is not over: the load goes on, and nobody who waits gets an answer. -/
theorem reading_step (s : State) (x : Step) (d : Int) (hl : s.loader = .reading d) (hd : s.now < d) (hx : Spec.AuthLock.ends x = false)
    (hb : Spec.AuthLock.before d x = true) :
    (step uni rod s x).loader = .reading d ∧ (step uni rod s x).now < d ∧
    ∀ i, (∀ isp cid, s.lookers i = .waiting isp cid → (step uni rod s x).lookers i = .waiting isp cid) ∧
      ∀ c, (step uni rod s x).lookers i = .got c → s.lookers i = .got c := by
  cases x with
  | pass t =>
    simp only [Spec.AuthLock.before, decide_eq_true_eq] at hb
    unfold step
    dsimp only
    split
    · exact ⟨hl, hb, fun i => ⟨fun _ _ h => h, fun _ h => h⟩⟩
    · exact ⟨hl, hd, fun i => ⟨fun _ _ h => h, fun _ h => h⟩⟩
  | tick => simp only [step, hl]; exact ⟨trivial, hd, fun i => ⟨fun _ _ h => h, fun _ h => h⟩⟩
  | found ok => simp only [step, hl]; exact ⟨trivial, hd, fun i => ⟨fun _ _ h => h, fun _ h => h⟩⟩
  | lock => simp only [step, hl]; exact ⟨trivial, hd, fun i => ⟨fun _ _ h => h, fun _ h => h⟩⟩
  | next r =>
    match r with
    | none => cases hx
    | some none => cases hx
    | some (some c) =>
      simp only [step, hl, if_pos hd]
      exact ⟨trivial, hd, fun i => ⟨fun _ _ h => h, fun _ h => h⟩⟩
  | ask j isp cid =>
    unfold step
    dsimp only
    split
    · exact ⟨hl, hd, fun i => ⟨fun _ _ h => h, fun _ h => h⟩⟩
    · rename_i hj
      refine ⟨hl, hd, fun i => ?_⟩
      by_cases hij : i = j
      · subst hij
        refine ⟨fun a b h => absurd h (hj a b), fun c h => ?_⟩
        simp [State.put] at h
      · simp only [State.put, if_neg hij]
        exact ⟨fun _ _ h => h, fun _ h => h⟩
  | take j =>
    cases hj : s.lookers j with
    | idle => simp only [step, hl, hj]; exact ⟨trivial, hd, fun i => ⟨fun _ _ h => h, fun _ h => h⟩⟩
    | waiting a b => simp only [step, hl, hj]; exact ⟨trivial, hd, fun i => ⟨fun _ _ h => h, fun _ h => h⟩⟩
    | got c => simp only [step, hl, hj]; exact ⟨trivial, hd, fun i => ⟨fun _ _ h => h, fun _ h => h⟩⟩

/-- C130 fails: a lookup waits for the database. Take any history that ends while a load is reading its records, and anything that happens
afterwards - records arriving, time passing, others asking - short of the end of the load and of its time limit: whoever was waiting is still
waiting, and whoever asks gets no answer. -/
theorem lookup_waits_fails (a b : List Step) (d : Int) (hl : (run uni rod m a).loader = .reading d) (hd : (run uni rod m a).now < d)
    (he : ∀ x ∈ b, Spec.AuthLock.ends x = false ∧ Spec.AuthLock.before d x = true) :
    (run uni rod m (a ++ b)).loader = .reading d ∧
    ∀ i, (∀ isp cid, (run uni rod m a).lookers i = .waiting isp cid → (run uni rod m (a ++ b)).lookers i = .waiting isp cid) ∧
      ∀ c, (run uni rod m (a ++ b)).lookers i = .got c → (run uni rod m a).lookers i = .got c := by
  suffices h : (run uni rod m (a ++ b)).loader = .reading d ∧ (run uni rod m (a ++ b)).now < d ∧
      ∀ i, (∀ isp cid, (run uni rod m a).lookers i = .waiting isp cid → (run uni rod m (a ++ b)).lookers i = .waiting isp cid) ∧
        ∀ c, (run uni rod m (a ++ b)).lookers i = .got c → (run uni rod m a).lookers i = .got c from ⟨h.1, h.2.2⟩
  induction b using snoc_induction with
  | nil => rw [List.append_nil]; exact ⟨hl, hd, fun i => ⟨fun _ _ h => h, fun _ h => h⟩⟩
  | snoc b x ih =>
    obtain ⟨h1, h2, h3⟩ := ih fun y hy => he y (List.mem_append_left _ hy)
    obtain ⟨hx1, hx2⟩ := he x (by simp)
    rw [← List.append_assoc, run_snoc]
    obtain ⟨q1, q2, q3⟩ := reading_step uni rod _ x d h1 h2 hx1 hx2
    exact ⟨q1, q2, fun i => ⟨fun isp cid h => (q3 i).1 _ _ ((h3 i).1 _ _ h), fun c h => (h3 i).2 c ((q3 i).2 c h)⟩⟩

/-- The time limits of the loads under way. -/
theorem deadline_inv (steps : List Step) (d : Int)
    (h : (run uni rod m steps).loader = .finding d ∨ (run uni rod m steps).loader = .locking d ∨ (run uni rod m steps).loader = .reading d) :
    d ≤ (run uni rod m steps).now + rod := by
  induction steps using snoc_induction generalizing d with
  | nil => rcases h with h | h | h <;> cases h
  | snoc l x ih =>
    rw [run_snoc] at h ⊢
    generalize run uni rod m l = s at *
    have key : ∀ s' : State, s'.loader = s.loader → s.now ≤ s'.now →
        (s'.loader = .finding d ∨ s'.loader = .locking d ∨ s'.loader = .reading d) → d ≤ s'.now + rod := by
      intro s' h1 h2 h3
      rw [h1] at h3
      have := ih d h3
      omega
    cases x with
    | pass t =>
      unfold step at h ⊢
      dsimp only at h ⊢
      split at h
      · rename_i ht
        rw [if_pos ht]
        exact key { s with now := t } rfl ht h
      · rename_i ht
        rw [if_neg ht]
        exact key s rfl (Int.le_refl _) h
    | tick =>
      unfold step at h ⊢
      dsimp only at h ⊢
      cases hl : s.loader with
      | idle =>
        simp only [hl] at h ⊢
        rcases h with h | h | h
        · cases h; exact Int.le_refl _
        · cases h
        · cases h
      | finding e => simp only [hl] at h ⊢; exact ih d (by rw [hl]; exact h)
      | locking e => simp only [hl] at h ⊢; exact ih d (by rw [hl]; exact h)
      | reading e => simp only [hl] at h ⊢; exact ih d (by rw [hl]; exact h)
    | found ok =>
      unfold step at h ⊢
      dsimp only at h ⊢
      cases hl : s.loader with
      | idle => simp only [hl] at h ⊢; exact ih d (by rw [hl]; exact h)
      | finding e =>
        simp only [hl] at h ⊢
        split at h
        · rename_i hc
          rw [if_pos hc]
          rcases h with h | h | h
          · cases h
          · cases h; exact ih _ (.inl hl)
          · cases h
        · rcases h with h | h | h <;> cases h
      | locking e => simp only [hl] at h ⊢; exact ih d (by rw [hl]; exact h)
      | reading e => simp only [hl] at h ⊢; exact ih d (by rw [hl]; exact h)
    | lock =>
      unfold step at h ⊢
      dsimp only at h ⊢
      cases hl : s.loader with
      | idle => simp only [hl] at h ⊢; exact ih d (by rw [hl]; exact h)
      | finding e => simp only [hl] at h ⊢; exact ih d (by rw [hl]; exact h)
      | locking e =>
        simp only [hl] at h ⊢
        rcases h with h | h | h
        · cases h
        · cases h
        · cases h; exact ih _ (.inr (.inl hl))
      | reading e => simp only [hl] at h ⊢; exact ih d (by rw [hl]; exact h)
    | next r =>
      unfold step at h ⊢
      dsimp only at h ⊢
      cases hl : s.loader with
      | idle => simp only [hl] at h ⊢; exact ih d (by rw [hl]; exact h)
      | finding e => simp only [hl] at h ⊢; exact ih d (by rw [hl]; exact h)
      | locking e => simp only [hl] at h ⊢; exact ih d (by rw [hl]; exact h)
      | reading e =>
        simp only [hl] at h ⊢
        split at h
        · rename_i hc
          rw [if_pos hc]
          match r with
          | none => rcases h with h | h | h <;> cases h
          | some none => rcases h with h | h | h <;> cases h
          | some (some c) => exact ih d (by rw [hl]; exact h)
        · rcases h with h | h | h <;> cases h
    | ask j isp cid =>
      unfold step at h ⊢
      dsimp only at h ⊢
      split at h <;> first | exact ih d h | exact key _ rfl (Int.le_refl _) h
    | take j =>
      unfold step at h ⊢
      dsimp only at h ⊢
      split at h <;> first | exact ih d h | exact key _ rfl (Int.le_refl _) h

/-- C130: but not for longer than the configured time limit. While a load reads, its limit is at most `ReadTimeout` away; and once the
limit is reached, the next return of `Next`, whatever it gives, ends the load: then everybody who waits is answered at their next step. -/
theorem wait_bounded (steps : List Step) (d : Int) (hl : (run uni rod m steps).loader = .reading d) :
    d ≤ (run uni rod m steps).now + rod ∧
    (d ≤ (run uni rod m steps).now → ∀ r i isp cid, (run uni rod m steps).lookers i = .waiting isp cid →
      (run uni rod m (steps ++ [.next r, .take i])).lookers i = .got (findByCid uni (run uni rod m steps).cache isp cid)) := by
  refine ⟨deadline_inv uni rod m steps d (.inr (.inr hl)), fun hd r i isp cid hi => ?_⟩
  rw [run_append]
  generalize run uni rod m steps = s at *
  show (step uni rod (step uni rod s (.next r)) (.take i)).lookers i = _
  have h1 : step uni rod s (.next r) = { s with loader := .idle } := by
    simp only [step, hl]
    rw [if_neg (by omega)]
  rw [h1]
  simp only [step, hi, State.put, if_true]

/-- The map changes only while a load is reading. -/
theorem cache_step (s : State) (x : Step) (h : ∀ d, s.loader ≠ .reading d) : (step uni rod s x).cache = s.cache := by
  unfold step
  cases x with
  | pass t => dsimp only; split <;> rfl
  | tick => dsimp only; split <;> rfl
  | found ok =>
    dsimp only
    split
    · split <;> rfl
    · rfl
  | lock => dsimp only; split <;> rfl
  | next r =>
    dsimp only
    split
    · rename_i d hd; exact absurd hd (h d)
    · rfl
  | ask j isp cid => dsimp only; split <;> rfl
  | take j => dsimp only; split <;> rfl

/-- C130: no lookup sees half a load. If no load begins to read between two lookups and none was reading at the first, both see the same
accounts: for the second, what the map held at the first. -/
theorem lookups_agree (a b : List Step) (ha : ∀ d, (run uni rod m a).loader ≠ .reading d) (hb : Step.lock ∉ b) :
    (run uni rod m (a ++ b)).cache = (run uni rod m a).cache := by
  suffices h : (run uni rod m (a ++ b)).cache = (run uni rod m a).cache ∧ ∀ d, (run uni rod m (a ++ b)).loader ≠ .reading d from h.1
  induction b using snoc_induction with
  | nil => rw [List.append_nil]; exact ⟨rfl, ha⟩
  | snoc b x ih =>
    obtain ⟨h1, h2⟩ := ih fun hm => hb (List.mem_append_left _ hm)
    rw [← List.append_assoc, run_snoc]
    refine ⟨(cache_step uni rod _ x h2).trans h1, ?_⟩
    generalize run uni rod m (a ++ b) = s at *
    intro d hd
    have hx : x ≠ .lock := by rintro rfl; exact hb (by simp)
    unfold step at hd
    cases x with
    | lock => exact hx rfl
    | pass t => dsimp only at hd; split at hd <;> exact h2 d hd
    | tick => dsimp only at hd; split at hd <;> first | exact h2 d hd | cases hd
    | found ok =>
      dsimp only at hd
      split at hd
      · split at hd <;> cases hd
      · exact h2 d hd
    | next r =>
      dsimp only at hd
      split at hd
      · rename_i e he; exact h2 e he
      · exact h2 d hd
    | ask j isp cid => dsimp only at hd; split at hd <;> exact h2 d hd
    | take j => dsimp only at hd; split at hd <;> exact h2 d hd

/-- C130: what a lookup answers is a whole record: one the database gave, under the
name of its carrier and id, or the account the store held from the start; or nothing. -/
theorem answers_whole (steps : List Step) :
    (∀ k c, (run uni rod m steps).cache k = some c → m k = some c ∨ (Step.next (some (some c)) ∈ steps ∧ k = c.isp ++ ascii "_" ++ c.clientId)) ∧
    ∀ i c, (run uni rod m steps).lookers i = .got (some c) → (∃ k, m k = some c) ∨ Step.next (some (some c)) ∈ steps := by
  induction steps using snoc_induction with
  | nil => exact ⟨fun k c h => .inl h, fun i c h => by cases h⟩
  | snoc l x ih =>
    rw [run_snoc]
    generalize run uni rod m l = s at *
    obtain ⟨h1, h2⟩ := ih
    have k1 : ∀ k c, s.cache k = some c → m k = some c ∨ (Step.next (some (some c)) ∈ l ++ [x] ∧ k = c.isp ++ ascii "_" ++ c.clientId) :=
      fun k c h => (h1 k c h).imp id fun h => ⟨List.mem_append_left _ h.1, h.2⟩
    have k2 : ∀ i c, s.lookers i = .got (some c) → (∃ k, m k = some c) ∨ Step.next (some (some c)) ∈ l ++ [x] :=
      fun i c h => (h2 i c h).imp id fun h => List.mem_append_left _ h
    unfold step
    cases x with
    | pass t => dsimp only; split <;> exact ⟨k1, k2⟩
    | tick => dsimp only; split <;> exact ⟨k1, k2⟩
    | found ok =>
      dsimp only
      split
      · split <;> exact ⟨k1, k2⟩
      · exact ⟨k1, k2⟩
    | lock => dsimp only; split <;> exact ⟨k1, k2⟩
    | next r =>
      dsimp only
      split
      · split
        · match r with
          | none => exact ⟨k1, k2⟩
          | some none => exact ⟨k1, k2⟩
          | some (some c0) =>
            refine ⟨fun k c h => ?_, k2⟩
            simp only [Cache.set] at h
            split at h
            · rename_i hk; cases h; exact .inr ⟨by simp, hk⟩
            · exact k1 k c h
        · exact ⟨k1, k2⟩
      · exact ⟨k1, k2⟩
    | ask j isp cid =>
      dsimp only
      split
      · exact ⟨k1, k2⟩
      · refine ⟨k1, fun i c h => ?_⟩
        simp only [State.put] at h
        split at h
        · cases h
        · exact k2 i c h
    | take j =>
      dsimp only
      split
      · exact ⟨k1, k2⟩
      · refine ⟨k1, fun i c h => ?_⟩
        simp only [State.put] at h
        split at h
        · simp only [Looker.got.injEq] at h
          exact (k1 _ c h).imp (fun h => ⟨_, h⟩) fun h => h.1
        · exact k2 i c h
      · exact ⟨k1, k2⟩

/-! ## Examples -/

/-- A load with a limit of 15 that is reading its records at time 5: one has come. Goroutine 0 asks. -/
def slowLoad : List Step := [.tick, .pass 1, .found true, .lock, .next (some (some { isp := ascii "cmpp", clientId := ascii "1" })), .pass 5,
  .ask 0 (ascii "CMPP") (ascii "1")]

example : (run id 15 (fun _ => none) slowLoad).loader = .reading 15 ∧ (run id 15 (fun _ => none) slowLoad).now = 5 ∧
    (run id 15 (fun _ => none) slowLoad).lookers 0 = .waiting (ascii "CMPP") (ascii "1") := by decide

/-- It is not answered up to time 14, and answered at time 15 when the load gives up. -/
example : (run id 15 (fun _ => none) (slowLoad ++ [.take 0, .pass 14, .take 0])).lookers 0 = .waiting (ascii "CMPP") (ascii "1") :=
  ((lookup_waits_fails id 15 _ slowLoad [.take 0, .pass 14, .take 0] 15 (by decide) (by decide) (by decide)).2 0).1 _ _ (by decide)

example : (run id 15 (fun _ => none) ((slowLoad ++ [.pass 15]) ++ [.next none, .take 0])).lookers 0 =
    .got (some { isp := ascii "cmpp", clientId := ascii "1" }) :=
  ((wait_bounded id 15 (fun _ => none) (slowLoad ++ [.pass 15]) 15 (by decide)).2 (by decide) none 0 (ascii "CMPP") (ascii "1")
    (by decide)).trans (by decide)

end Gosms.AuthLock
