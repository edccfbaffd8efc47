import Verif.Spec.Auth

/-!
# C52, C64: account store and configuration copy
-/

namespace Gosms.Auth
open Gosms.Spec.Auth (Describes Key)

/-! ## The key of a file name -/

theorem keyOf_yaml (base : Bytes) : keyOf (base ++ ascii ".yaml") = base := by
  have h1 : hasSuffix (base ++ ascii ".yaml") (ascii ".yaml") = true := by simp [hasSuffix]
  have h2 : hasSuffix (base ++ ascii ".yaml") (ascii ".yml") = false := by
    have e : base ++ ascii ".yaml" = (base ++ ascii ".") ++ ascii "yaml" := by
      rw [List.append_assoc]; rfl
    unfold hasSuffix
    rw [Bool.eq_false_iff, ne_eq, List.isSuffixOf_iff_suffix, e]
    rintro ⟨t, ht⟩
    have hlen : (ascii ".yml").length = (ascii "yaml").length := rfl
    have := (List.append_inj_right' ht hlen)
    exact absurd this (by decide)
  have hl : (base ++ ascii ".yaml").length - 5 = base.length := by
    rw [List.length_append]
    have : (ascii ".yaml").length = 5 := rfl
    omega
  unfold keyOf
  rw [h1, h2]
  simp only [if_true, Bool.false_eq_true, if_false, hl]
  exact List.take_left

theorem keyOf_yml (base : Bytes) : keyOf (base ++ ascii ".yml") = base := by
  have h1 : hasSuffix (base ++ ascii ".yml") (ascii ".yml") = true := by simp [hasSuffix]
  have hl : (base ++ ascii ".yml").length - 4 = base.length := by
    rw [List.length_append]
    have : (ascii ".yml").length = 4 := rfl
    omega
  unfold keyOf
  rw [h1]
  simp only [if_true, hl]
  exact List.take_left

theorem keyOf_other (name : Bytes) (h : keyOf name ≠ []) :
    name = keyOf name ++ ascii ".yaml" ∨ name = keyOf name ++ ascii ".yml" := by
  by_cases h2 : hasSuffix name (ascii ".yml") = true
  · obtain ⟨t, rfl⟩ := List.isSuffixOf_iff_suffix.1 h2
    right; rw [keyOf_yml]
  · by_cases h1 : hasSuffix name (ascii ".yaml") = true
    · obtain ⟨t, rfl⟩ := List.isSuffixOf_iff_suffix.1 h1
      left; rw [keyOf_yaml]
    · exact absurd (by simp only [keyOf, if_neg h1, if_neg h2]) h

/-- What one directory entry does. -/
theorem loadFile_spec (uni : Bytes → Bytes) (parse : Bytes → Option Client) (m m' : Cache) (f : File)
    (h : loadFile uni parse m f = some m') :
    (∃ key c, Describes (toLower uni) parse f key c ∧ 4 ≤ key.length ∧
      (∀ key' c', Describes (toLower uni) parse f key' c' → key' = key ∧ c' = c) ∧
      m' = m.set key { c with isp := key.take 4 }) ∨
    ((∀ key c, ¬ Describes (toLower uni) parse f key c) ∧ m' = m) := by
  have base_of : ∀ name, (f.name = name ++ ascii ".yaml" ∨ f.name = name ++ ascii ".yml") →
      keyOf f.name = name := by
    rintro name (e | e)
    · rw [e, keyOf_yaml]
    · rw [e, keyOf_yml]
  unfold loadFile at h
  split at h
  · rename_i hd
    right
    exact ⟨fun key c hh => absurd (hd.symm.trans hh.1) (by simp), (Option.some.inj h).symm⟩
  · rename_i hd
    simp only at h
    split at h
    · rename_i hk
      right
      refine ⟨?_, (Option.some.inj h).symm⟩
      rintro key c ⟨_, _, name, hn, hs, _⟩
      exact hn (by rw [← base_of name hs, hk])
    · rename_i hk
      unfold unmarshal at h
      split at h
      · rename_i hp
        right
        refine ⟨?_, (Option.some.inj h).symm⟩
        rintro key c ⟨_, hp', _⟩
        rw [hp] at hp'; cases hp'
      · rename_i cli hp
        split at h
        · cases h
        · rename_i hl
          left
          refine ⟨toLower uni (keyOf f.name), cli, ⟨by simpa using hd, hp, _, hk, keyOf_other _ hk, rfl⟩,
            by omega, ?_, (Option.some.inj h).symm⟩
          rintro key' c' ⟨_, hp', name, hn, hs, hlow⟩
          rw [hp, Option.some.injEq] at hp'
          exact ⟨by rw [← hlow, base_of name hs], hp'.symm⟩

theorem yamlLoad_untouched (uni : Bytes → Bytes) (parse : Bytes → Option Client) (fs : List File)
    (m m' : Cache) (h : yamlLoad uni parse m fs = some m') (key : Bytes)
    (hno : ∀ f ∈ fs, ∀ c, ¬ Describes (toLower uni) parse f key c) : m' key = m key := by
  induction fs generalizing m with
  | nil => simp [yamlLoad] at h; rw [h]
  | cons f fs ih =>
    rw [yamlLoad, List.foldlM_cons, Option.bind_eq_bind, Option.bind_eq_some_iff] at h
    obtain ⟨m1, h1, h2⟩ := h
    rw [ih m1 h2 (fun g hg => hno g (by simp [hg]))]
    rcases loadFile_spec uni parse m m1 f h1 with ⟨k, c, hd, _, _, rfl⟩ | ⟨_, rfl⟩
    · have : key ≠ k := by rintro rfl; exact hno f (by simp) c hd
      simp [Cache.set, this]
    · rfl

theorem yamlLoad_append (uni : Bytes → Bytes) (parse : Bytes → Option Client) (a b : List File)
    (m : Cache) : yamlLoad uni parse m (a ++ b) = (yamlLoad uni parse m a).bind fun m1 => yamlLoad uni parse m1 b := by
  simp [yamlLoad, List.foldlM_append]

/-- Several loads are one load of all files in sequence. -/
theorem yamlLoads_flatten (uni : Bytes → Bytes) (parse : Bytes → Option Client) (loads : List (List File))
    (m : Cache) : loads.foldlM (yamlLoad uni parse) m = yamlLoad uni parse m loads.flatten := by
  induction loads generalizing m with
  | nil => simp [yamlLoad]
  | cons l ls ih =>
    rw [List.flatten_cons, yamlLoad_append, List.foldlM_cons, Option.bind_eq_bind]
    congr 1
    funext m1
    exact ih m1

/-- C52, exactly what a lookup finds after any history of loads of the YAML store (none of which crashed),
for any carrier and client id: the configuration in the last file, over all loads, named after them - with
the carrier taken from the name. If no load ever had such a file, nothing.

Partial: files of *earlier* loads still count (see `yaml_store_removed_fails`) and only the carrier's letter
case is ignored, not the client id's (see `yaml_store_upper_case_fails`). -/
theorem yaml_store_lookup_partial (uni : Bytes → Bytes) (parse : Bytes → Option Client)
    (loads : List (List File)) (m : Cache)
    (h : loads.foldlM (yamlLoad uni parse) (fun _ => none) = some m)
    (isp cid key : Bytes) (hkey : Key (toLower uni) isp cid key) :
    (∀ before f after c, loads.flatten = before ++ f :: after → Describes (toLower uni) parse f key c →
      (∀ g ∈ after, ∀ c', ¬ Describes (toLower uni) parse g key c') →
      findByCid uni m isp cid = some { c with isp := key.take 4 }) ∧
    ((∀ f ∈ loads.flatten, ∀ c, ¬ Describes (toLower uni) parse f key c) → findByCid uni m isp cid = none) := by
  rw [yamlLoads_flatten] at h
  unfold findByCid
  have hkey' : toLower uni isp ++ ascii "_" ++ cid = key := hkey.symm
  rw [hkey']
  constructor
  · intro before f after c hf hd hafter
    rw [hf, yamlLoad_append] at h
    obtain ⟨m1, _, h1⟩ := Option.bind_eq_some_iff.1 h
    rw [yamlLoad, List.foldlM_cons, Option.bind_eq_bind] at h1
    obtain ⟨m2, h2, h3⟩ := Option.bind_eq_some_iff.1 h1
    rw [yamlLoad_untouched uni parse after m2 m h3 key hafter]
    rcases loadFile_spec uni parse m1 m2 f h2 with ⟨k, c', hd', _, hu, rfl⟩ | ⟨hno, _⟩
    · obtain ⟨rfl, rfl⟩ := hu key c hd
      simp [Cache.set]
    · exact absurd hd (hno key c)
  · intro hno
    rw [yamlLoad_untouched uni parse _ _ m h key hno]

/-- After one load of a directory in which exactly one file is named after the account (in any letter case),
the lookup returns its configuration; an account with no file is not found. -/
theorem yaml_store_first_load_partial (uni : Bytes → Bytes) (parse : Bytes → Option Client)
    (fs : List File) (m : Cache) (h : yamlLoad uni parse (fun _ => none) fs = some m)
    (isp cid key : Bytes) (hkey : Key (toLower uni) isp cid key) :
    (∀ f c, f ∈ fs → Describes (toLower uni) parse f key c →
      (∀ g ∈ fs, ∀ c', Describes (toLower uni) parse g key c' → c' = c) →
      findByCid uni m isp cid = some { c with isp := key.take 4 }) ∧
    ((∀ f ∈ fs, ∀ c, ¬ Describes (toLower uni) parse f key c) → findByCid uni m isp cid = none) := by
  have h' : [fs].foldlM (yamlLoad uni parse) (fun _ => none) = some m := by
    simpa [List.foldlM] using h
  obtain ⟨h1, h2⟩ := yaml_store_lookup_partial uni parse [fs] m h' isp cid key hkey
  refine ⟨fun f c hf hd huniq => ?_, fun hno => h2 (by simpa using hno)⟩
  have split : ∀ l : List File, (∃ g ∈ l, ∃ c', Describes (toLower uni) parse g key c') →
      ∃ before g after c', l = before ++ g :: after ∧ Describes (toLower uni) parse g key c' ∧
        ∀ x ∈ after, ∀ c'', ¬ Describes (toLower uni) parse x key c'' := by
    intro l
    induction l with
    | nil => rintro ⟨g, hg, _⟩; simp at hg
    | cons a l ih =>
      intro hx
      by_cases hl : ∃ g ∈ l, ∃ c', Describes (toLower uni) parse g key c'
      · obtain ⟨b, g, aft, c', rfl, h3, h4⟩ := ih hl
        exact ⟨a :: b, g, aft, c', rfl, h3, h4⟩
      · obtain ⟨g, hg, c', hgd⟩ := hx
        have hnot : ∀ x ∈ l, ∀ c'', ¬ Describes (toLower uni) parse x key c'' :=
          fun x hx c'' hc => hl ⟨x, hx, c'', hc⟩
        rcases List.mem_cons.1 hg with rfl | hg
        · exact ⟨[], g, l, c', rfl, hgd, hnot⟩
        · exact absurd hgd (hnot g hg c')
  obtain ⟨b, g, aft, c', rfl, h3, h4⟩ := split fs ⟨f, hf, c, hd⟩
  have := huniq g (by simp) c' h3
  subst this
  exact h1 b g aft c' (by simp) h3 h4

/-- A parser of one-byte contents, for the examples. -/
def exampleParse (d : Bytes) : Option Client :=
  match d with
  | [b] => some { clientId := [b] }
  | _ => none

example : Describes (toLower id) exampleParse ⟨ascii "CMPP_ab.yaml", false, [7]⟩ (ascii "cmpp_ab")
      { clientId := [7] } ∧ Key (toLower id) (ascii "CMPP") (ascii "ab") (ascii "cmpp_ab") ∧
    ((yamlLoad id exampleParse (fun _ => none) [⟨ascii "CMPP_ab.yaml", false, [7]⟩,
      ⟨ascii "cmpp_cd.yml", false, []⟩]).bind
        fun m => findByCid id m (ascii "CMPP") (ascii "ab")) = some { clientId := [7], isp := ascii "cmpp" } := by
  refine ⟨⟨rfl, rfl, ascii "CMPP_ab", by decide, .inl (by decide), by decide⟩, by unfold Key; decide, by decide⟩

/-- The clause "accounts not mentioned in the directory are not found" fails after every reload: what was
found before and is no longer mentioned is still found. -/
theorem yaml_store_removed_fails (uni : Bytes → Bytes) (parse : Bytes → Option Client) (m m' : Cache)
    (fs : List File) (h : yamlLoad uni parse m fs = some m') (isp cid key : Bytes)
    (hkey : Key (toLower uni) isp cid key)
    (hno : ∀ f ∈ fs, ∀ c, ¬ Describes (toLower uni) parse f key c) :
    findByCid uni m' isp cid = findByCid uni m isp cid := by
  unfold findByCid
  have hkey' : toLower uni isp ++ ascii "_" ++ cid = key := hkey.symm
  rw [hkey', yamlLoad_untouched uni parse fs m m' h key hno]

/-- A deleted account that is still found. -/
example : (([[⟨ascii "cmpp_ab.yaml", false, [7]⟩], []] : List (List File)).foldlM (yamlLoad id exampleParse)
    (fun _ => none)).bind (fun m => findByCid id m (ascii "CMPP") (ascii "ab")) =
    some { clientId := [7], isp := ascii "cmpp" } := by decide

/-- Not an ASCII capital. -/
def NotUpper (b : UInt8) : Prop := ¬ (0x41 ≤ b ∧ b ≤ 0x5A)

theorem notUpper_lowerByte (b : UInt8) : NotUpper (lowerByte b) := by
  unfold NotUpper lowerByte
  split
  · rename_i h
    have h1 := UInt8.le_iff_toNat_le.1 h.1
    have h2 := UInt8.le_iff_toNat_le.1 h.2
    have e1 : (0x41 : UInt8).toNat = 0x41 := rfl
    have e2 : (0x5A : UInt8).toNat = 0x5A := rfl
    have e3 : (0x20 : UInt8).toNat = 0x20 := rfl
    rintro ⟨h3, h4⟩
    have h4' := UInt8.le_iff_toNat_le.1 h4
    rw [UInt8.toNat_add] at h4'
    omega
  · assumption

/-- The clause about the letter case of file names fails for client ids with a capital letter: the account
is never found, whatever was loaded, although the file is named exactly after it. (`hU`: the Unicode
lower-casing leaves no ASCII capital.) -/
theorem yaml_store_upper_case_fails (uni : Bytes → Bytes) (hU : ∀ s, ∀ b ∈ uni s, NotUpper b)
    (parse : Bytes → Option Client) (loads : List (List File)) (m : Cache)
    (h : loads.foldlM (yamlLoad uni parse) (fun _ => none) = some m)
    (isp cid : Bytes) (hcid : ∃ b ∈ cid, ¬ NotUpper b) : findByCid uni m isp cid = none := by
  refine (yaml_store_lookup_partial uni parse loads m h isp cid _ rfl).2 ?_
  rintro f _ c ⟨_, _, name, _, _, hl⟩
  obtain ⟨b, hb, hup⟩ := hcid
  refine hup ?_
  have hb' : b ∈ toLower uni name := by rw [hl]; simp [hb]
  unfold toLower at hb'
  split at hb'
  · obtain ⟨x, _, rfl⟩ := List.mem_map.1 hb'
    exact notUpper_lowerByte x
  · exact hU _ b hb'

/-- The file `cmpp_AB.yaml` does not make the account AB available. -/
example : ((yamlLoad id exampleParse (fun _ => none) [⟨ascii "cmpp_AB.yaml", false, [7]⟩]).bind
    fun m => findByCid id m (ascii "CMPP") (ascii "AB")) = none ∧ (∃ b ∈ ascii "AB", ¬ NotUpper b) := by
  refine ⟨by decide, 0x41, by decide, fun h => h (by decide)⟩

/-- Further finding: a readable file whose name without extension has one to three letters crashes the
load. -/
theorem yaml_store_short_name_crashes (uni : Bytes → Bytes) (parse : Bytes → Option Client) (m : Cache)
    (f : File) (key : Bytes) (c : Client) (hd : Describes (toLower uni) parse f key c) (hs : key.length < 4) :
    loadFile uni parse m f = none := by
  cases h : loadFile uni parse m f with
  | none => rfl
  | some m' =>
    rcases loadFile_spec uni parse m m' f h with ⟨k, c', _, hl, hu, _⟩ | ⟨hno, _⟩
    · obtain ⟨rfl, _⟩ := hu key c hd
      omega
    · exact absurd hd (hno key c)

example : Describes (toLower id) exampleParse ⟨ascii "abc.yml", false, [7]⟩ (ascii "abc") { clientId := [7] } ∧
    (ascii "abc").length < 4 :=
  ⟨⟨rfl, rfl, ascii "abc", by decide, .inr (by decide), by decide⟩, by decide⟩

/-- The MongoDB store: a lookup finds the last record read whose carrier and client id joined by `_` are the
key, or what was there before. The records read are those before the first one that does not decode (`none`): the
others are not loaded. -/
theorem mongo_store_lookup (uni : Bytes → Bytes) (m : Cache) (docs : List (Option Client)) (isp cid : Bytes) :
    findByCid uni (mongoLoad m docs) isp cid =
      ((((docs.takeWhile Option.isSome).filterMap id).filter fun c =>
        c.isp ++ ascii "_" ++ c.clientId = toLower uni isp ++ ascii "_" ++ cid).getLast?).or
        (findByCid uni m isp cid) := by
  induction docs generalizing m with
  | nil => simp [mongoLoad]
  | cons d ds ih =>
    cases d with
    | none => simp [mongoLoad]
    | some c =>
      rw [mongoLoad, ih, List.takeWhile_cons_of_pos rfl, List.filterMap_cons_some (f := id) (a := some c) (b := c) rfl]
      generalize (ds.takeWhile Option.isSome).filterMap id = cs
      by_cases h : c.isp ++ ascii "_" ++ c.clientId = toLower uni isp ++ ascii "_" ++ cid
      · rw [List.filter_cons_of_pos (by simpa using h)]
        simp only [findByCid, Cache.set, h, if_true]
        rw [List.getLast?_cons]
        cases (cs.filter fun c => c.isp ++ ascii "_" ++ c.clientId =
          toLower uni isp ++ ascii "_" ++ cid).getLast? <;> rfl
      · rw [List.filter_cons_of_neg (by simpa using h)]
        have h' : ¬ toLower uni isp ++ ascii "_" ++ cid = c.isp ++ ascii "_" ++ c.clientId := fun e => h e.symm
        simp only [findByCid, Cache.set, if_neg h']

/-- Two readable records around one that is not: the second is not found. -/
example (uni : Bytes → Bytes) : findByCid uni (mongoLoad (fun _ => none)
    [some { isp := ascii "cmpp", clientId := ascii "1" }, none, some { isp := ascii "cmpp", clientId := ascii "2" }])
    (ascii "cmpp") (ascii "2") = none := by
  rw [mongo_store_lookup]
  have : toLower uni (ascii "cmpp") = ascii "cmpp" := by
    unfold toLower; rw [if_pos (by decide)]; decide
  rw [this, show findByCid uni (fun _ => none) (ascii "cmpp") (ascii "2") = none from rfl]
  decide

/-- The protocol's name, and the name of an account's file, are compared in lower case: in a text of ASCII characters exactly the letters A to Z are
changed, to the letters a to z; any other text is changed the way Unicode says. -/
theorem lower_case (uni : Bytes → Bytes) (s : Bytes) :
    ((∀ b ∈ s, b.toNat < 128) → (toLower uni s).length = s.length ∧ ∀ i (h : i < s.length) (h' : i < (toLower uni s).length),
      ((toLower uni s)[i].toNat = if 65 ≤ s[i].toNat ∧ s[i].toNat ≤ 90 then s[i].toNat + 32 else s[i].toNat)) ∧
    ((∃ b ∈ s, 128 ≤ b.toNat) → toLower uni s = uni s) := by
  constructor
  · intro h
    have e : toLower uni s = s.map lowerByte := by
      unfold toLower
      rw [if_pos]
      rw [List.all_eq_true]
      intro b hb
      have := h b hb
      rw [decide_eq_true_iff, UInt8.lt_iff_toNat_lt]
      exact this
    rw [e]
    refine ⟨by simp, fun i hi hi' => ?_⟩
    rw [List.getElem_map]
    unfold lowerByte
    by_cases hc : 65 ≤ s[i].toNat ∧ s[i].toNat ≤ 90
    · rw [if_pos hc, if_pos ⟨UInt8.le_iff_toNat_le.2 hc.1, UInt8.le_iff_toNat_le.2 hc.2⟩, UInt8.toNat_add]
      show (s[i].toNat + 32) % 2 ^ 8 = _
      omega
    · rw [if_neg hc, if_neg]
      intro h
      have h1 : 65 ≤ s[i].toNat := UInt8.le_iff_toNat_le.1 h.1
      have h2 : s[i].toNat ≤ 90 := UInt8.le_iff_toNat_le.1 h.2
      exact hc ⟨h1, h2⟩
  · rintro ⟨b, hb, h⟩
    unfold toLower
    rw [if_neg]
    intro hall
    have := List.all_eq_true.1 hall b hb
    rw [decide_eq_true_iff, UInt8.lt_iff_toNat_lt] at this
    have : b.toNat < 128 := this
    omega

example : toLower id (ascii "CMPP_Ab9") = ascii "cmpp_ab9" := by decide

/-! ## C64 -/

theorem copyField_ok {T V : Type} [DecidableEq T] (src : List (Field T V)) (f : Field T V)
    (hs : ∀ g ∈ src, g.exported) (hf : f.exported) :
    ∃ f', copyField src f = some f' ∧ f'.name = f.name ∧ f'.ty = f.ty ∧ f'.exported = f.exported ∧
      ((src.map Field.name).Nodup →
        (∀ g ∈ src, g.name = f.name → g.ty = f.ty → f'.val = g.val) ∧
        ((∀ g ∈ src, ¬ (g.name = f.name ∧ g.ty = f.ty)) → f'.val = f.val)) := by
  have huniq : (src.map Field.name).Nodup → ∀ g ∈ src, ∀ g' ∈ src, g.name = g'.name → g = g' := by
    intro hn
    clear hs
    induction src with
    | nil => intro g hg; simp at hg
    | cons a l ih =>
      rw [List.map_cons, List.nodup_cons] at hn
      intro g hg g' hg' e
      rcases List.mem_cons.1 hg with h1 | h1 <;> rcases List.mem_cons.1 hg' with h2 | h2
      · rw [h1, h2]
      · exact absurd (List.mem_map.2 ⟨g', h2, by rw [← e, h1]⟩) hn.1
      · exact absurd (List.mem_map.2 ⟨g, h1, by rw [e, h2]⟩) hn.1
      · exact ih hn.2 g h1 g' h2 e
  unfold copyField
  cases hfind : src.find? fun g => g.name = f.name with
  | none =>
    refine ⟨f, rfl, rfl, rfl, rfl, fun _ => ⟨fun g hg hn _ => ?_, fun _ => rfl⟩⟩
    have := List.find?_eq_none.1 hfind g hg
    simp [hn] at this
  | some g =>
    have hg := List.mem_of_find?_eq_some hfind
    have hgn : g.name = f.name := by simpa using List.find?_some hfind
    by_cases ht : g.ty = f.ty
    · refine ⟨{ f with val := g.val }, by simp [ht, hf, hs g hg], rfl, rfl, rfl,
        fun hn => ⟨fun g' hg' hn' _ => ?_, fun hno => absurd ⟨hgn, ht⟩ (hno g hg)⟩⟩
      rw [huniq hn g hg g' hg' (by rw [hgn, hn'])]
    · refine ⟨f, by simp [ht], rfl, rfl, rfl, fun hn => ⟨fun g' hg' hn' ht' => ?_, fun _ => rfl⟩⟩
      have := huniq hn g hg g' hg' (by rw [hgn, hn'])
      subst this
      exact absurd ht' ht

/-- C64, `StructCopy` between pointers to any two structs with exported fields: the target keeps its fields;
each one whose name and type occur in the source has the source's value, every other one is unchanged. -/
theorem structCopy_exact {T V : Type} [DecidableEq T] (src dst : List (Field T V))
    (hs : ∀ g ∈ src, g.exported) (hd : ∀ g ∈ dst, g.exported) (hn : (src.map Field.name).Nodup) :
    ∃ res, structCopy (.ptr src) (.ptr dst) = some (.ptr res) ∧ res.length = dst.length ∧
      ∀ i (h : i < dst.length) (h' : i < res.length),
        res[i].name = dst[i].name ∧ res[i].ty = dst[i].ty ∧
        (∀ g ∈ src, g.name = dst[i].name → g.ty = dst[i].ty → res[i].val = g.val) ∧
        ((∀ g ∈ src, ¬ (g.name = dst[i].name ∧ g.ty = dst[i].ty)) → res[i].val = dst[i].val) := by
  induction dst with
  | nil => exact ⟨[], rfl, rfl, fun i h => absurd h (by simp)⟩
  | cons f fs ih =>
    obtain ⟨f', h1, h2, h3, _, h4⟩ := copyField_ok src f hs (hd f (by simp))
    obtain ⟨res, h5, h6, h7⟩ := ih (fun g hg => hd g (by simp [hg]))
    refine ⟨f' :: res, ?_, by simp [h6], ?_⟩
    · simp only [structCopy, List.mapM_cons, Option.map_eq_some_iff, Ref.ptr.injEq] at h5 ⊢
      obtain ⟨l, hl, rfl⟩ := h5
      exact ⟨f' :: l, by simp [h1, hl], rfl⟩
    · intro i hi hi'
      cases i with
      | zero => exact ⟨h2, h3, h4 hn⟩
      | succ i => exact h7 i (by simpa using hi) (by simpa using hi')

/-- A field that is not exported, in either struct, makes `StructCopy` panic if the other one has a field of the same name and type. -/
theorem structCopy_unexported_fails {T V : Type} [DecidableEq T] (src dst : List (Field T V)) (hn : (src.map Field.name).Nodup)
    (f g : Field T V) (hf : f ∈ dst) (hg : g ∈ src) (hname : g.name = f.name) (hty : g.ty = f.ty)
    (hx : f.exported = false ∨ g.exported = false) : structCopy (.ptr src) (.ptr dst) = none := by
  have hfind : src.find? (fun g => g.name = f.name) = some g := by
    clear hf hx hty
    induction src with
    | nil => cases hg
    | cons a l ih =>
      rw [List.map_cons, List.nodup_cons] at hn
      rw [List.find?_cons]
      rcases List.mem_cons.1 hg with h | h
      · subst h; simp [hname]
      · have : ¬ a.name = f.name := fun e => hn.1 (List.mem_map.2 ⟨g, h, by rw [hname, e]⟩)
        simp only [this, decide_false]
        exact ih hn.2 h
  have hc : copyField src f = none := by
    unfold copyField
    rw [hfind]
    rcases hx with h | h <;> simp [hty, h]
  have hm : dst.mapM (copyField src) = none := by
    clear hn hg hname hty hx hfind
    induction dst with
    | nil => cases hf
    | cons a l ih =>
      rw [List.mapM_cons]
      rcases List.mem_cons.1 hf with h | h
      · subst h; rw [hc]; rfl
      · rw [ih h]
        cases copyField src a <;> rfl
  unfold structCopy
  simp [hm]

example : structCopy (T := Nat) (V := Nat) (.ptr [⟨[1], true, 0, 10⟩, ⟨[2], false, 0, 20⟩]) (.ptr [⟨[2], false, 0, 0⟩]) matches none := by decide

/-- Without two proper pointers nothing happens. -/
theorem structCopy_guard {T V : Type} [DecidableEq T] (a b : Ref T V)
    (h : a = .notPointer ∨ b = .notPointer ∨ a = .nil ∨ b = .nil) : structCopy a b = some b := by
  cases a <;> cases b <;> first | rfl | (simp at h)

example : structCopy (T := Nat) (V := Nat) (.ptr [⟨[1], true, 0, 10⟩, ⟨[2], true, 0, 20⟩])
    (.ptr [⟨[2], true, 0, 0⟩, ⟨[1], true, 1, 5⟩, ⟨[3], true, 0, 7⟩]) matches
    some (.ptr [⟨[2], true, 0, 20⟩, ⟨[1], true, 1, 5⟩, ⟨[3], true, 0, 7⟩]) := by decide

set_option maxRecDepth 4000 in
/-- C64. `FindAuthConf` never panics and returns a configuration with the value of every field of the stored
client; nil if there is none. -/
theorem findAuthConf_exact (find : Bytes → Bytes → Option Client) (isp cid : Bytes) :
    findAuthConf find isp cid = some ((find isp cid).map fun c =>
      { isp := c.isp, clientId := c.clientId, loginName := c.loginName, sharedSecret := c.sharedSecret,
        version := c.version, needReport := c.needReport, smsDisplayNo := c.smsDisplayNo,
        serviceId := c.serviceId, defaultMsgLevel := c.defaultMsgLevel, feeUserType := c.feeUserType,
        feeTerminalType := c.feeTerminalType, feeTerminalId := c.feeTerminalId, feeType := c.feeType,
        feeCode := c.feeCode, fixedFee := c.fixedFee, linkId := c.linkId,
        mtValidDuration := c.mtValidDuration, maxConns := c.maxConns, mtWindowSize := c.mtWindowSize,
        throughput := c.throughput }) := by
  unfold findAuthConf
  cases find isp cid with
  | none => rfl
  | some c => rfl

example : findAuthConf (fun _ _ => some { clientId := [7], maxConns := 3 }) [] [] =
    some (some { clientId := [7], maxConns := 3 }) := by rw [findAuthConf_exact]; rfl

end Gosms.Auth
