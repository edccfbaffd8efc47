import Verif.Model.Reload
import Verif.Spec.Auth
import Verif.Props.Auth
import Verif.Go.Bytes

/-!
# C110 — the accounts of a running process follow the store, and lookups see whole accounts
-/

namespace Gosms.Reload
open Gosms.Auth
open Gosms.Spec.Auth

/-! ## Specification -/

namespace Spec

/-- What is in the directory after the operator's changes: what the last of them made it, at first nothing. -/
def diskAfter (steps : List Step) : Option (List File) :=
  (steps.reverse.findSome? fun | .edit d => some d | _ => none).getD (some [])

/-- One undisturbed reload of a directory with `n` entries: nothing but the steps of the process. -/
def reload (n : Nat) : List Step := .list :: (List.replicate (n + 1) [Step.read, .insert]).flatten

/-- There is a plain file of that name. -/
def Plain (fs : List File) (name : Bytes) : Prop := ∃ f ∈ fs, f.name = name ∧ f.isDir = false

/-- The file is no account file, or its account has a key of at least four characters. -/
def NameOk (uni : Bytes → Bytes) (f : File) : Prop :=
  ∀ name, name ≠ [] → f.name = name ++ ascii ".yaml" ∨ f.name = name ++ ascii ".yml" → 4 ≤ (toLower uni name).length

/-- An operator who leaves the directory readable, never takes a file away and gives no short names. -/
def Careful (uni : Bytes → Bytes) (steps : List Step) : Prop :=
  ∀ before d after, steps = before ++ .edit d :: after → ∃ fs, d = some fs ∧ (∀ f ∈ fs, NameOk uni f) ∧
    ∀ name, Plain ((diskAfter before).getD []) name → Plain fs name

end Spec

/-! ## Runs -/

section
variable (uni : Bytes → Bytes) (parse : Bytes → Option Client)

/-- A run from any state. -/
def runFrom (s : State) (steps : List Step) : State := steps.foldl (step uni parse) s

theorem run_append (a b : List Step) : run uni parse (a ++ b) = runFrom uni parse (run uni parse a) b := by
  unfold run runFrom; rw [List.foldl_append]

theorem run_snoc (a : List Step) (x : Step) : run uni parse (a ++ [x]) = step uni parse (run uni parse a) x := by
  rw [run_append]; rfl

theorem diskAfter_snoc (a : List Step) (x : Step) :
    Spec.diskAfter (a ++ [x]) = match x with | .edit d => d | _ => Spec.diskAfter a := by
  unfold Spec.diskAfter
  rw [List.reverse_append]
  cases x <;> simp [List.findSome?_cons]

theorem readFile_some (d : Option (List File)) (name data : Bytes) (h : readFile d name = some data) :
    ∃ fs f, d = some fs ∧ f ∈ fs ∧ f.name = name ∧ f.isDir = false ∧ f.data = data := by
  unfold readFile at h
  obtain ⟨f, hf, he⟩ := List.exists_of_findSome?_eq_some h
  cases d with
  | none => simp at hf
  | some fs =>
    split at he
    · rename_i hc
      exact ⟨fs, f, rfl, hf, hc.1, hc.2, by simpa using he⟩
    · cases he

theorem readFile_plain (fs : List File) (name : Bytes) (h : Spec.Plain fs name) : ∃ data, readFile (some fs) name = some data := by
  obtain ⟨f, hf, hn, hd⟩ := h
  cases hr : readFile (some fs) name with
  | some data => exact ⟨data, rfl⟩
  | none =>
    unfold readFile at hr
    have := List.findSome?_eq_none_iff.1 hr f (by simpa using hf)
    simp [hn, hd] at this

/-- The directory of a run is what the operator made it. -/
theorem disk_eq (steps : List Step) : (run uni parse steps).disk = Spec.diskAfter steps := by
  induction steps using snoc_induction with
  | nil => rfl
  | snoc a x ih =>
    rw [run_snoc, diskAfter_snoc]
    cases x with
    | edit d => rfl
    | list =>
      rw [← ih]; simp only [step]; split
      · rfl
      · split
        · rfl
        · split <;> simp_all
    | read =>
      rw [← ih]; simp only [step]; split
      · rfl
      · split
        · rfl
        · split
          · rfl
          · split <;> rfl
        · rfl
    | insert =>
      rw [← ih]; simp only [step]; split
      · rfl
      · split
        · rfl
        · split <;> rfl

/-- What one step can do to the map: nothing, or the insertion of the account in hand. -/
theorem step_cache (s : State) (x : Step) :
    (step uni parse s x).cache = s.cache ∨
    ∃ key data c, s.hand = some (key, data) ∧ parse data = some c ∧ 4 ≤ key.length ∧
      (step uni parse s x).cache = s.cache.set key { c with isp := key.take 4 } := by
  cases x with
  | edit d => exact .inl rfl
  | list =>
    left; simp only [step]; split
    · rfl
    · split
      · rfl
      · split <;> rfl
  | read =>
    left; simp only [step]; split
    · rfl
    · split
      · rfl
      · split
        · rfl
        · split <;> rfl
      · rfl
  | insert =>
    simp only [step]; split
    · exact .inl rfl
    · split
      · exact .inl rfl
      · rename_i key data hh
        split
        · exact .inl rfl
        · rename_i m hm
          unfold unmarshal at hm
          split at hm
          · left; simpa using hm.symm
          · rename_i c hc
            split at hm
            · cases hm
            · rename_i hl
              exact .inr ⟨key, data, c, hh, hc, by omega, by simpa using hm.symm⟩

/-- What is in hand after a step: what was, or the content of a file that is in the directory now. -/
theorem step_hand (s : State) (x : Step) (key data : Bytes) (h : (step uni parse s x).hand = some (key, data)) :
    s.hand = some (key, data) ∨
    ∃ fs f, s.disk = some fs ∧ f ∈ fs ∧ f.isDir = false ∧ f.data = data ∧ keyOf f.name ≠ [] ∧ toLower uni (keyOf f.name) = key := by
  cases x with
  | edit d => exact .inl h
  | list =>
    left; simp only [step] at h
    split at h
    · exact h
    · split at h
      · exact h
      · split at h <;> exact h
  | read =>
    simp only [step] at h
    split at h
    · exact .inl h
    · split at h
      · exact .inl h
      · rename_i name isDir rest h1 h2
        split at h
        · exact .inl h
        · rename_i hc
          split at h
          · exact .inl h
          · rename_i d hd
            right
            simp only [Option.some.injEq, Prod.mk.injEq] at h
            obtain ⟨fs, f, e1, e2, e3, e4, e5⟩ := readFile_some _ _ _ hd
            refine ⟨fs, f, e1, e2, e4, e5.trans h.2, ?_, ?_⟩
            · rw [e3]; exact fun h' => hc (.inr h')
            · rw [e3]; exact h.1
      · exact .inl h
  | insert =>
    left; simp only [step] at h
    split at h
    · exact h
    · split at h
      · exact h
      · split at h
        · exact h
        · cases h

/-- A map entry of a run is what some file of that key said at one moment. -/
theorem cache_origin (steps : List Step) :
    (∀ key data, (run uni parse steps).hand = some (key, data) → ∃ before after fs f, steps = before ++ after ∧
      Spec.diskAfter before = some fs ∧ f ∈ fs ∧ f.isDir = false ∧ f.data = data ∧ keyOf f.name ≠ [] ∧ toLower uni (keyOf f.name) = key) ∧
    ∀ key c, (run uni parse steps).cache key = some c → ∃ before after fs f c0, steps = before ++ after ∧
      Spec.diskAfter before = some fs ∧ f ∈ fs ∧ Describes (toLower uni) parse f key c0 ∧ c = { c0 with isp := key.take 4 } := by
  induction steps using snoc_induction with
  | nil => exact ⟨fun _ _ h => (by cases h), fun _ _ h => (by cases h)⟩
  | snoc a x ih =>
    rw [run_snoc]
    constructor
    · intro key data h
      rcases step_hand uni parse _ x key data h with h | ⟨fs, f, h1, h2, h3, h4, h5, h6⟩
      · obtain ⟨b, r, fs, f, e, hh⟩ := ih.1 key data h
        exact ⟨b, r ++ [x], fs, f, by rw [e, List.append_assoc], hh⟩
      · rw [disk_eq] at h1
        exact ⟨a, [x], fs, f, rfl, h1, h2, h3, h4, h5, h6⟩
    · intro key c h
      rcases step_cache uni parse (run uni parse a) x with he | ⟨k, data, c1, hh, hp, _, he⟩
      · rw [he] at h
        obtain ⟨b, r, fs, f, c0, e, hh⟩ := ih.2 key c h
        exact ⟨b, r ++ [x], fs, f, c0, by rw [e, List.append_assoc], hh⟩
      · rw [he] at h
        unfold Cache.set at h
        split at h
        · rename_i hk
          subst hk
          obtain ⟨b, r, fs, f, e, h1, h2, h3, h4, h5, h6⟩ := ih.1 _ data hh
          refine ⟨b, r ++ [x], fs, f, c1, by rw [e, List.append_assoc], h1, h2, ⟨h3, ?_, keyOf f.name, h5, keyOf_other _ h5, h6⟩, ?_⟩
          · rw [h4]; exact hp
          · simpa using h.symm
        · obtain ⟨b, r, fs, f, c0, e, hh⟩ := ih.2 key c h
          exact ⟨b, r ++ [x], fs, f, c0, by rw [e, List.append_assoc], hh⟩

/-! ## Lookups while the store is reloaded -/

/-- C110: a lookup at any moment - in the middle of a reload, while the operator changes files - gives nothing or one whole account as
a file of that name described it at one moment of the past. -/
theorem account_whole (steps : List Step) (isp cid key : Bytes) (c : Client) (hkey : Key (toLower uni) isp cid key)
    (h : findByCid uni (run uni parse steps).cache isp cid = some c) :
    ∃ before after fs f c0, steps = before ++ after ∧ Spec.diskAfter before = some fs ∧ f ∈ fs ∧
      Describes (toLower uni) parse f key c0 ∧ c = { c0 with isp := key.take 4 } := by
  have hkey' : toLower uni isp ++ ascii "_" ++ cid = key := hkey.symm
  unfold findByCid at h
  rw [hkey'] at h
  exact (cache_origin uni parse steps).2 key c h

/-- C110: an account once found is found ever after: no moment of a reload, no unreadable file and no other change of the directory
makes it disappear. -/
theorem account_stays (steps more : List Step) (isp cid : Bytes)
    (h : findByCid uni (run uni parse steps).cache isp cid ≠ none) :
    findByCid uni (run uni parse (steps ++ more)).cache isp cid ≠ none := by
  induction more using snoc_induction with
  | nil => simpa using h
  | snoc a x ih =>
    rw [← List.append_assoc, run_snoc]
    rcases step_cache uni parse (run uni parse (steps ++ a)) x with he | ⟨k, data, c1, _, _, _, he⟩
    · rw [he]; exact ih
    · rw [he]
      unfold findByCid Cache.set at *
      split
      · simp
      · exact ih

/-! ## A whole reload -/

theorem runFrom_append (s : State) (a b : List Step) : runFrom uni parse s (a ++ b) = runFrom uni parse (runFrom uni parse s a) b := by
  unfold runFrom; rw [List.foldl_append]

theorem ended_stays (s : State) (steps : List Step) (h : s.ended.isSome) (hn : ∀ d, Step.edit d ∉ steps) :
    runFrom uni parse s steps = s := by
  induction steps with
  | nil => rfl
  | cons x r ih =>
    have e : step uni parse s x = s := by
      cases x with
      | edit d => exact absurd (List.mem_cons_self ..) (hn d)
      | _ => simp [step, h]
    show runFrom uni parse (step uni parse s x) r = s
    rw [e]
    exact ih fun d hd => hn d (List.mem_cons_of_mem _ hd)

/-- Reading a directory with distinct names gives each file its own content. -/
theorem readFile_own (fs : List File) (hn : (fs.map File.name).Nodup) (f : File) (hf : f ∈ fs) (hd : f.isDir = false) :
    readFile (some fs) f.name = some f.data := by
  obtain ⟨data, h⟩ := readFile_plain fs f.name ⟨f, hf, rfl, hd⟩
  obtain ⟨fs', g, e, hg, h1, h2, h3⟩ := readFile_some _ _ _ h
  cases e
  have : g = f := by
    clear h h2 h3
    induction fs with
    | nil => cases hg
    | cons a r ih =>
      rw [List.map_cons, List.nodup_cons] at hn
      rcases List.mem_cons.1 hf with hf | hf
      · rcases List.mem_cons.1 hg with hg | hg
        · rw [hf, hg]
        · exact absurd (hf ▸ h1 ▸ List.mem_map_of_mem hg) hn.1
      · rcases List.mem_cons.1 hg with hg | hg
        · exact absurd (hg ▸ h1.symm ▸ List.mem_map_of_mem hf) hn.1
        · exact ih hn.2 hf hg
  rw [h, ← h3, this]

theorem reload_rest (fs : List File) (hn : (fs.map File.name).Nodup) (rest : List File) (hsub : ∀ f ∈ rest, f ∈ fs) (s : State)
    (hd : s.disk = some fs) (he : s.ended = none) (hh : s.hand = none)
    (ht : s.todo = some (rest.map fun f => (f.name, f.isDir))) :
    (∀ m, yamlLoad uni parse s.cache rest = some m →
      runFrom uni parse s (List.replicate (rest.length + 1) [Step.read, .insert]).flatten = { s with cache := m, todo := none }) ∧
    (yamlLoad uni parse s.cache rest = none →
      (runFrom uni parse s (List.replicate (rest.length + 1) [Step.read, .insert]).flatten).ended = some .panic) := by
  induction rest generalizing s with
  | nil =>
    obtain ⟨disk, cache, todo, hand, ended⟩ := s
    simp only at hd he hh ht
    subst hd he hh ht
    constructor
    · intro m hm
      have : cache = m := by simpa [yamlLoad] using hm
      simp [runFrom, step, this]
    · intro h; simp [yamlLoad] at h
  | cons f r ih =>
    obtain ⟨disk, cache, todo, hand, ended⟩ := s
    simp only at hd he hh ht
    subst hd he hh ht
    have hf : f ∈ fs := hsub f (List.mem_cons_self ..)
    have hr : ∀ g ∈ r, g ∈ fs := fun g hg => hsub g (List.mem_cons_of_mem _ hg)
    rw [List.length_cons, List.replicate_succ, List.flatten_cons, runFrom_append]
    have hy : yamlLoad uni parse cache (f :: r) = (loadFile uni parse cache f).bind fun m => yamlLoad uni parse m r := by
      simp [yamlLoad, List.foldlM_cons]
    -- what the two steps do
    cases hl : loadFile uni parse cache f with
    | some m =>
      have e : runFrom uni parse ⟨some fs, cache, some ((f :: r).map fun f => (f.name, f.isDir)), none, none⟩ [.read, .insert] =
          ⟨some fs, m, some (r.map fun f => (f.name, f.isDir)), none, none⟩ := by
        by_cases hc : f.isDir = true ∨ keyOf f.name = []
        · have hm : m = cache := by
            unfold loadFile at hl
            rcases hc with hc | hc <;> simp [hc] at hl <;> simp [hl]
          simp [runFrom, step, hc, hm]
        · have hdir : f.isDir = false := by
            cases h : f.isDir
            · rfl
            · exact absurd (.inl h) hc
          have hk : keyOf f.name ≠ [] := fun h => hc (.inr h)
          have hu : unmarshal parse f.data (toLower uni (keyOf f.name)) cache = some m := by
            simpa [loadFile, hdir, hk] using hl
          simp [runFrom, step, hdir, hk, readFile_own fs hn f hf hdir, hu]
      rw [e, hy, hl]
      simp only [Option.bind_some]
      exact ih hr ⟨some fs, m, some (r.map fun f => (f.name, f.isDir)), none, none⟩ rfl rfl rfl rfl
    | none =>
      rw [hy, hl]
      refine ⟨fun m hm => (by simp at hm), fun _ => ?_⟩
      have hdir : f.isDir = false := by
        cases h : f.isDir
        · rfl
        · simp [loadFile, h] at hl
      have hk : keyOf f.name ≠ [] := by
        intro h; simp [loadFile, h] at hl
      have hu : unmarshal parse f.data (toLower uni (keyOf f.name)) cache = none := by
        simpa [loadFile, hdir, hk] using hl
      have e : (runFrom uni parse ⟨some fs, cache, some ((f :: r).map fun f => (f.name, f.isDir)), none, none⟩ [.read, .insert]).ended =
          some .panic := by
        simp [runFrom, step, hdir, hk, readFile_own fs hn f hf hdir, hu]
      rw [ended_stays]
      · exact e
      · rw [e]; rfl
      · intro d hd
        simp at hd

/-- A process at rest: alive and with no reload under way. -/
def Idle (s : State) : Prop := s.ended = none ∧ s.todo = none ∧ s.hand = none

theorem reload_run (s : State) (hi : Idle s) (fs : List File) (hd : s.disk = some fs) (hn : (fs.map File.name).Nodup) :
    (∀ m, yamlLoad uni parse s.cache fs = some m → runFrom uni parse s (Spec.reload fs.length) = { s with cache := m }) ∧
    (yamlLoad uni parse s.cache fs = none → (runFrom uni parse s (Spec.reload fs.length)).ended = some .panic) := by
  obtain ⟨disk, cache, todo, hand, ended⟩ := s
  obtain ⟨h1, h2, h3⟩ := hi
  simp only at h1 h2 h3 hd
  subst h1 h2 h3 hd
  have e : runFrom uni parse ⟨some fs, cache, none, none, none⟩ (Spec.reload fs.length) =
      runFrom uni parse ⟨some fs, cache, some (fs.map fun f => (f.name, f.isDir)), none, none⟩
        (List.replicate (fs.length + 1) [Step.read, .insert]).flatten := by
    simp [Spec.reload, runFrom, step]
  have := reload_rest uni parse fs hn fs (fun _ h => h) ⟨some fs, cache, some (fs.map fun f => (f.name, f.isDir)), none, none⟩
    rfl rfl rfl rfl
  rw [e]
  exact ⟨fun m hm => this.1 m hm, fun hm => this.2 hm⟩

/-- C110: whatever happened before, one reload that nobody disturbs makes every account be what its file says. -/
theorem reload_applied_partial (steps : List Step) (hi : Idle (run uni parse steps)) (fs : List File)
    (hd : Spec.diskAfter steps = some fs) (hn : (fs.map File.name).Nodup) (hok : ∀ f ∈ fs, Spec.NameOk uni f)
    (f : File) (hf : f ∈ fs) (isp cid key : Bytes) (c : Client) (hkey : Key (toLower uni) isp cid key)
    (hdesc : Describes (toLower uni) parse f key c)
    (honly : ∀ g ∈ fs, ∀ c', Describes (toLower uni) parse g key c' → g = f) :
    findByCid uni (run uni parse (steps ++ Spec.reload fs.length)).cache isp cid = some { c with isp := key.take 4 } ∧
    Idle (run uni parse (steps ++ Spec.reload fs.length)) := by
  rw [run_append]
  have hd' := hd
  rw [← disk_eq uni parse] at hd'
  have hr := reload_run uni parse _ hi fs hd' hn
  have hsome : ∀ (l : List File) (m : Cache), (∀ g ∈ l, Spec.NameOk uni g) → ∃ m', yamlLoad uni parse m l = some m' := by
    intro l
    induction l with
    | nil => intro m _; exact ⟨m, rfl⟩
    | cons g r ih =>
      intro m hl
      have : ∃ m1, loadFile uni parse m g = some m1 := by
        unfold loadFile
        split
        · exact ⟨_, rfl⟩
        · dsimp only
          split
          · exact ⟨_, rfl⟩
          · rename_i hk
            have := hl g (List.mem_cons_self ..) (keyOf g.name) hk (keyOf_other _ hk)
            unfold unmarshal
            split
            · exact ⟨_, rfl⟩
            · rw [if_neg (by omega)]; exact ⟨_, rfl⟩
      obtain ⟨m1, h1⟩ := this
      obtain ⟨m', h2⟩ := ih m1 fun g hg => hl g (List.mem_cons_of_mem _ hg)
      exact ⟨m', by simp [yamlLoad, List.foldlM_cons, h1]; exact h2⟩
  obtain ⟨m, hm⟩ := hsome fs (run uni parse steps).cache hok
  rw [hr.1 m hm]
  refine ⟨?_, hi.1, hi.2.1, hi.2.2⟩
  show findByCid uni m isp cid = _
  unfold findByCid
  have hkey' : toLower uni isp ++ ascii "_" ++ cid = key := hkey.symm
  rw [hkey']
  obtain ⟨a, b, e⟩ := List.append_of_mem hf
  rw [e, yamlLoad_append, Option.bind_eq_some_iff] at hm
  obtain ⟨m1, _, hm⟩ := hm
  have hcons : yamlLoad uni parse m1 (f :: b) = (loadFile uni parse m1 f).bind fun m => yamlLoad uni parse m b := by
    simp [yamlLoad, List.foldlM_cons]
  rw [hcons, Option.bind_eq_some_iff] at hm
  obtain ⟨m2, h2, hm⟩ := hm
  rw [yamlLoad_untouched uni parse b m2 m hm key]
  · rcases loadFile_spec uni parse m1 m2 f h2 with ⟨k, c', _, _, hu, rfl⟩ | ⟨hno, _⟩
    · obtain ⟨rfl, rfl⟩ := hu key c hdesc
      simp [Cache.set]
    · exact absurd hdesc (hno key c)
  · intro g hg c' hdg
    have hgf : g = f := honly g (by rw [e]; exact List.mem_append_right _ (List.mem_cons_of_mem _ hg)) c' hdg
    rw [e, List.map_append, List.map_cons, List.nodup_append] at hn
    exact (List.nodup_cons.1 hn.2.1).1 (hgf ▸ List.mem_map_of_mem hg)

/-! ## What ends the process -/

/-- C110 fails: a directory that cannot be read at the moment of a reload - unmounted, renamed, no permission - ends the running process,
with all its connections. -/
theorem directory_gone_fails (steps : List Step) (hi : Idle (run uni parse steps)) (hd : Spec.diskAfter steps = none) :
    (run uni parse (steps ++ [.list])).ended = some .fatal := by
  rw [run_snoc]
  have hd' := disk_eq uni parse steps
  rw [hd] at hd'
  simp [step, hi.1, hi.2.1, hd']

/-- C110 fails: so does an account file removed (or replaced by way of removing it) after the directory was listed and before it was
read. -/
theorem removed_while_reloading_fails (steps : List Step) (hi : Idle (run uni parse steps)) (f : File) (rest after : List File)
    (hd : Spec.diskAfter steps = some (f :: rest)) (hf : f.isDir = false)
    (hname : ∃ name, name ≠ [] ∧ (f.name = name ++ ascii ".yaml" ∨ f.name = name ++ ascii ".yml"))
    (hgone : ¬ Spec.Plain after f.name) :
    (run uni parse (steps ++ [.list, .edit (some after), .read])).ended = some .fatal := by
  rw [run_append]
  have hd' := disk_eq uni parse steps
  rw [hd] at hd'
  have hk : keyOf f.name ≠ [] := by
    obtain ⟨n, hn, h | h⟩ := hname
    · rw [h, keyOf_yaml]; exact hn
    · rw [h, keyOf_yml]; exact hn
  have hr : readFile (some after) f.name = none := by
    cases h : readFile (some after) f.name with
    | none => rfl
    | some data =>
      obtain ⟨fs, g, e, hg, h1, h2, _⟩ := readFile_some _ _ _ h
      cases e
      exact absurd ⟨g, hg, h1, h2⟩ hgone
  simp [runFrom, step, hi.1, hi.2.1, hi.2.2, hd', hf, hk, hr]

/-- C110 fails: so does an account file with a short name put into the directory of a running process. -/
theorem short_name_fails (steps : List Step) (hi : Idle (run uni parse steps)) (fs : List File)
    (hd : Spec.diskAfter steps = some fs) (hn : (fs.map File.name).Nodup)
    (f : File) (hf : f ∈ fs) (key : Bytes) (c : Client) (hdesc : Describes (toLower uni) parse f key c) (hs : key.length < 4) :
    (run uni parse (steps ++ Spec.reload fs.length)).ended = some .panic := by
  rw [run_append]
  have hd' := hd
  rw [← disk_eq uni parse] at hd'
  refine (reload_run uni parse _ hi fs hd' hn).2 ?_
  obtain ⟨a, b, e⟩ := List.append_of_mem hf
  rw [e, yamlLoad_append]
  cases h : yamlLoad uni parse (run uni parse steps).cache a with
  | none => rfl
  | some m1 =>
    show yamlLoad uni parse m1 (f :: b) = none
    have hl := yaml_store_short_name_crashes uni parse m1 f key c hdesc hs
    simp [yamlLoad, List.foldlM_cons, hl]

/-- The steps so far of a careful operator's history were careful. -/
theorem careful_init (a : List Step) (x : Step) (h : Spec.Careful uni (a ++ [x])) : Spec.Careful uni a := by
  intro b d r e
  exact h b d (r ++ [x]) (by rw [e]; simp)

/-- C110: with an operator who only adds and rewrites files (in place) and gives them proper names, no reload ever ends the process,
whatever the contents and whenever they change. -/
theorem survives_partial (steps : List Step) (hc : Spec.Careful uni steps) : (run uni parse steps).ended = none := by
  suffices h : (run uni parse steps).ended = none ∧
      (∃ fs, (run uni parse steps).disk = some fs ∧ (∀ f ∈ fs, Spec.NameOk uni f) ∧
        ∀ t, (run uni parse steps).todo = some t → ∀ e ∈ t, e.2 = false → Spec.Plain fs e.1) ∧
      ∀ key data, (run uni parse steps).hand = some (key, data) → 4 ≤ key.length from h.1
  induction steps using snoc_induction with
  | nil => exact ⟨rfl, ⟨[], rfl, fun _ h => (by cases h), fun _ h => (by cases h)⟩, fun _ _ h => (by cases h)⟩
  | snoc a x ih =>
    obtain ⟨h1, ⟨fs, h2, h3, h4⟩, h5⟩ := ih (careful_init uni a x hc)
    rw [run_snoc]
    have hdisk := disk_eq uni parse a
    generalize run uni parse a = s at *
    obtain ⟨disk, cache, todo, hand, ended⟩ := s
    simp only at h1 h2 h4 h5 hdisk
    subst h1 h2
    cases x with
    | edit d =>
      obtain ⟨fs', e, hok, hkeep⟩ := hc a d [] rfl
      subst e
      refine ⟨rfl, ⟨fs', rfl, hok, fun t ht e he h => hkeep _ ?_⟩, h5⟩
      rw [← hdisk]
      exact h4 t ht e he h
    | list =>
      cases todo with
      | some t => exact ⟨rfl, ⟨fs, rfl, h3, h4⟩, h5⟩
      | none =>
        refine ⟨rfl, ⟨fs, rfl, h3, fun t ht e he h => ?_⟩, h5⟩
        simp only [step] at ht
        have ht' : t = fs.map fun f => (f.name, f.isDir) := by simpa using ht.symm
        subst ht'
        obtain ⟨f, hf, rfl⟩ := List.mem_map.1 he
        exact ⟨f, hf, rfl, h⟩
    | insert =>
      cases hand with
      | none => exact ⟨rfl, ⟨fs, rfl, h3, h4⟩, h5⟩
      | some kd =>
        obtain ⟨key, data⟩ := kd
        have hl := h5 key data rfl
        have hu : ∃ m, unmarshal parse data key cache = some m := by
          unfold unmarshal
          split
          · exact ⟨_, rfl⟩
          · rw [if_neg (by omega)]; exact ⟨_, rfl⟩
        obtain ⟨m, hm⟩ := hu
        simp only [step, Option.isSome_none, Bool.false_eq_true, if_false, hm]
        exact ⟨trivial, ⟨fs, rfl, h3, h4⟩, fun _ _ h => (by cases h)⟩
    | read =>
      cases hand with
      | some kd => exact ⟨rfl, ⟨fs, rfl, h3, h4⟩, h5⟩
      | none =>
        cases todo with
        | none => exact ⟨rfl, ⟨fs, rfl, h3, h4⟩, h5⟩
        | some t =>
          cases t with
          | nil => exact ⟨rfl, ⟨fs, rfl, h3, fun _ h => (by cases h)⟩, h5⟩
          | cons e r =>
            obtain ⟨name, isDir⟩ := e
            have hrest : ∀ e ∈ r, e.2 = false → Spec.Plain fs e.1 := fun e he => h4 _ rfl e (List.mem_cons_of_mem _ he)
            by_cases hk : isDir = true ∨ keyOf name = []
            · simp only [step, Option.isSome_none, Bool.false_eq_true, if_false, if_pos hk]
              refine ⟨trivial, ⟨fs, rfl, h3, fun t ht => ?_⟩, fun _ _ h => (by cases h)⟩
              have : t = r := by simpa using ht.symm
              subst this; exact hrest
            · have hdir : isDir = false := by
                cases isDir
                · rfl
                · exact absurd (.inl rfl) hk
              have hkey : keyOf name ≠ [] := fun h => hk (.inr h)
              have hp := h4 _ rfl (name, isDir) (List.mem_cons_self ..) hdir
              obtain ⟨data, hr⟩ := readFile_plain fs name hp
              obtain ⟨f, hf, hn, _⟩ := hp
              simp only [step, Option.isSome_none, Bool.false_eq_true, if_false, if_neg hk, hr]
              refine ⟨trivial, ⟨fs, rfl, h3, fun t ht => ?_⟩, fun key d h => ?_⟩
              · have : t = r := by simpa using ht.symm
                subst this; exact hrest
              · simp only [Option.some.injEq, Prod.mk.injEq] at h
                rw [← h.1]
                refine h3 f hf (keyOf name) hkey ?_
                simp only at hn
                rw [hn]; exact keyOf_other _ hkey

end

/-! ## The database -/

/-- C110: a database that cannot be reached takes no account away, nor does anything it answers. -/
theorem mongo_account_stays (uni : Bytes → Bytes) (t : Int) (answers : List (Option (List (Option Client)))) (m : Cache) (isp cid : Bytes)
    (h : findByCid uni m isp cid ≠ none) : findByCid uni (answers.foldl (mongoReload t) m) isp cid ≠ none := by
  induction answers generalizing m with
  | nil => exact h
  | cons a r ih =>
    refine ih _ ?_
    unfold mongoReload
    split
    · exact h
    · split
      · exact h
      · rename_i docs
        rw [mongo_store_lookup]
        intro hn
        exact h (Option.or_eq_none_iff.1 hn).2

/-- C110: with a time limit configured, a reload the database answers makes each account with one record be that record. -/
theorem mongo_reload_applied (uni : Bytes → Bytes) (t : Int) (ht : 0 < t) (m : Cache) (docs : List Client) (isp cid : Bytes) (c : Client)
    (hc : c ∈ docs) (hkey : c.isp ++ ascii "_" ++ c.clientId = toLower uni isp ++ ascii "_" ++ cid)
    (honly : ∀ c' ∈ docs, c'.isp ++ ascii "_" ++ c'.clientId = toLower uni isp ++ ascii "_" ++ cid → c' = c) :
    findByCid uni (mongoReload t m (some (docs.map some))) isp cid = some c := by
  unfold mongoReload
  rw [if_neg (by omega)]
  simp only
  rw [mongo_store_lookup]
  have e : ((docs.map some).takeWhile Option.isSome).filterMap id = docs := by
    clear hc honly
    induction docs with
    | nil => rfl
    | cons a r ih => simpa using ih
  rw [e]
  cases hl : (docs.filter fun c => c.isp ++ ascii "_" ++ c.clientId = toLower uni isp ++ ascii "_" ++ cid).getLast? with
  | none =>
    rw [List.getLast?_eq_none_iff] at hl
    have : c ∈ docs.filter fun c => c.isp ++ ascii "_" ++ c.clientId = toLower uni isp ++ ascii "_" ++ cid := by
      exact List.mem_filter.2 ⟨hc, by simpa using hkey⟩
    rw [hl] at this
    cases this
  | some c' =>
    have := List.mem_of_getLast? hl
    rw [List.mem_filter] at this
    rw [honly c' this.1 (by simpa using this.2)]
    rfl

/-- C110 fails: without a time limit in the configuration (`Mongo.ReadTimeout`) no load ever gets an answer, and no account is ever
found. -/
theorem mongo_no_timeout_fails (uni : Bytes → Bytes) (answers : List (Option (List (Option Client)))) (isp cid : Bytes) :
    findByCid uni (answers.foldl (mongoReload 0) fun _ => none) isp cid = none := by
  have : ∀ m : Cache, answers.foldl (mongoReload 0) m = m := by
    intro m
    induction answers with
    | nil => rfl
    | cons a r ih => exact ih
  rw [this]; rfl

/-! ## Examples -/

/-- A parser for the examples: the content is the client id. -/
def exParse (b : Bytes) : Option Client := if b = [] then none else some { clientId := b }

def exFile (n : String) (d : String) : File := ⟨ascii n, false, ascii d⟩

/-- Two accounts; the second file is rewritten between the two reads of the second reload, then emptied; the lookups see whole accounts. -/
def exHistory : List Step :=
  [.edit (some [exFile "cmpp_1.yaml" "1", exFile "Sgip_2.yml" "2"])] ++ Spec.reload 2 ++
  [.list, .read, .edit (some [exFile "cmpp_1.yaml" "1x", exFile "Sgip_2.yml" "2y"]), .insert, .read, .insert]

example : let m := (run id exParse exHistory).cache
    (findByCid id m (ascii "CMPP") (ascii "1")).map (·.clientId) = some (ascii "1") ∧
    (findByCid id m (ascii "SGIP") (ascii "2")).map (·.clientId) = some (ascii "2y") ∧
    (findByCid id m (ascii "SGIP") (ascii "2")).map (·.isp) = some (ascii "sgip") := by
  decide

example : Spec.Careful id exHistory ∧ (run id exParse exHistory).ended = none := by
  have hc : Spec.Careful id exHistory := by
    have ok : ∀ f ∈ [exFile "cmpp_1.yaml" "1", exFile "Sgip_2.yml" "2", exFile "cmpp_1.yaml" "1x", exFile "Sgip_2.yml" "2y"],
        Spec.NameOk id f := by
      intro f hf name _ hn
      have hk : keyOf f.name = name := by
        rcases hn with h | h
        · rw [h, keyOf_yaml]
        · rw [h, keyOf_yml]
      subst hk
      revert f
      decide
    have idx : ∀ i (h : i < exHistory.length) d, exHistory[i] = .edit d →
        (i = 0 ∧ d = some [exFile "cmpp_1.yaml" "1", exFile "Sgip_2.yml" "2"]) ∨
        (i = 10 ∧ d = some [exFile "cmpp_1.yaml" "1x", exFile "Sgip_2.yml" "2y"]) := by
      intro i h d e
      have h' : i < 14 := h
      have : i = 0 ∨ i = 1 ∨ i = 2 ∨ i = 3 ∨ i = 4 ∨ i = 5 ∨ i = 6 ∨ i = 7 ∨ i = 8 ∨ i = 9 ∨ i = 10 ∨ i = 11 ∨ i = 12 ∨ i = 13 := by
        omega
      rcases this with rfl | rfl | rfl | rfl | rfl | rfl | rfl | rfl | rfl | rfl | rfl | rfl | rfl | rfl <;>
        first
          | (left; exact ⟨rfl, (Step.edit.inj e).symm⟩)
          | (right; exact ⟨rfl, (Step.edit.inj e).symm⟩)
          | cases e
    intro b d r e
    have hl : b.length < exHistory.length := by rw [e]; simp
    have he : exHistory[b.length] = .edit d := by simp [e]
    have hb : b = exHistory.take b.length := by rw [e]; simp
    rcases idx _ hl d he with ⟨h0, rfl⟩ | ⟨h0, rfl⟩
    · refine ⟨_, rfl, fun f hf => ok f ?_, ?_⟩
      · simp only [List.mem_cons, List.not_mem_nil, or_false] at hf ⊢
        rcases hf with rfl | rfl <;> simp
      · rw [hb, h0]
        rintro name ⟨f, hf, _⟩
        cases hf
    · refine ⟨_, rfl, fun f hf => ok f ?_, ?_⟩
      · simp only [List.mem_cons, List.not_mem_nil, or_false] at hf ⊢
        rcases hf with rfl | rfl <;> simp
      · rw [hb, h0]
        rintro name ⟨f, hf, hn, hd⟩
        have hf' : f ∈ [exFile "cmpp_1.yaml" "1", exFile "Sgip_2.yml" "2"] := hf
        simp only [List.mem_cons, List.not_mem_nil, or_false] at hf'
        rcases hf' with rfl | rfl
        · exact ⟨exFile "cmpp_1.yaml" "1x", by simp, hn, hd⟩
        · exact ⟨exFile "Sgip_2.yml" "2y", by simp, hn, hd⟩
  exact ⟨hc, survives_partial id exParse exHistory hc⟩

example : (run id exParse ([.edit (some [exFile "cmpp_1.yaml" "1"])] ++ [.list, .edit (some []), .read])).ended = some .fatal := by decide

example : (run id exParse ([.edit (some [exFile "cmpp_1.yaml" "1"])] ++ Spec.reload 1 ++ [.edit none] ++ [.list])).ended = some .fatal := by
  decide

example : (run id exParse ([.edit (some [exFile "cmpp_1.yaml" "1", exFile "abc.yml" "1"])] ++ Spec.reload 2)).ended = some .panic := by
  decide

example : Idle (run id exParse ([.edit (some [exFile "cmpp_1.yaml" "1"])] ++ Spec.reload 1)) := ⟨by decide, by decide, by decide⟩

example : (findByCid id (mongoReload 5 (fun _ => none) (some [some { isp := ascii "cmpp", clientId := ascii "7" }])) (ascii "CMPP")
    (ascii "7")).isSome = true := by decide

end Gosms.Reload
