import Verif.Names.Ver
import Verif.Time.Reduce

/-!
# The index files of GRACE/GRACE-FO data
-/
namespace Verif.Names
open Verif.Time

/-! ## Specification -/

/-- the file is one of the product and of one of the two missions, with the version asked for that mission -/
def Wanted (proc drel dset : Name) (v1 v2 : Version) (f : Name) : Prop :=
  (∃ rx, compilePattern proc drel dset (some "GRAC".toList) "BA01".toList v1 = some rx ∧ accepts rx f = true) ∨
  (∃ rx, compilePattern proc drel dset (some "GRFO".toList) "BA01".toList v2 = some rx ∧ accepts rx f = true)

/-! ## `reduce_by_date` on names -/

theorem reduceNames_some (g r : List Name) (h : reduceNames g = some r) :
    (∀ f ∈ g, ∃ d, parseGraceFile f = some d) ∧
    (∀ f ∈ g, 2 ≤ (g.map parseGraceFile).count (parseGraceFile f) → ∃ v, versionOf f = some v) ∧
    r = reduceByDate (fun f => (parseGraceFile f).getD (mkSpan [] [] [] []))
      (fun f => (((versionOf f).getD 0 : ℕ) : ℤ)) g := by
  unfold reduceNames at h
  split_ifs at h with h1 h2
  push Not at h1 h2
  refine ⟨fun f hf => ?_, fun f hf hc => ?_, (Option.some.inj h).symm⟩
  · cases hp : parseGraceFile f with
    | none => exact absurd hp (h1 f hf)
    | some d => exact ⟨d, rfl⟩
  · cases hp : versionOf f with
    | none => exact absurd hp (h2 f hf hc)
    | some d => exact ⟨d, rfl⟩

/-- `reduce_by_date` stops with an exception exactly if a name has no dates, or if one of several names with the same
dates has no version -/
theorem reduceNames_raises_iff (g : List Name) :
    reduceNames g = none ↔
      (∃ f ∈ g, parseGraceFile f = none) ∨
      (∃ f ∈ g, 2 ≤ (g.map parseGraceFile).count (parseGraceFile f) ∧ versionOf f = none) := by
  unfold reduceNames
  split_ifs with h1 h2
  · simp only [true_iff]; exact Or.inl h1
  · simp only [true_iff]; exact Or.inr h2
  · simp only [false_iff, not_or]; exact ⟨h1, h2⟩

theorem count_two (g : List Name) (a b : Name) (ha : a ∈ g) (hb : b ∈ g) (hab : a ≠ b)
    (hd : parseGraceFile a = parseGraceFile b) : 2 ≤ (g.map parseGraceFile).count (parseGraceFile a) := by
  have h1 : [a, b].Subperm g := by
    apply List.subperm_of_subset
    · simp [hab]
    · intro x hx
      simp at hx
      rcases hx with rfl | rfl <;> assumption
  obtain ⟨l, hl1, hl2⟩ := h1
  have h2 := (hl2.map parseGraceFile).count_le (parseGraceFile a)
  rw [(hl1.map parseGraceFile).count_eq] at h2
  simpa [hd] using h2

/-- the result: names of the list, one for each of the dates, and always the newest version -/
theorem reduceNames_spec (g r : List Name) (h : reduceNames g = some r) :
    (∀ f ∈ r, f ∈ g) ∧
    (∀ f ∈ g, ∃ f' ∈ r, parseGraceFile f' = parseGraceFile f) ∧
    (r.map parseGraceFile).Nodup ∧
    (∀ f ∈ r, ∀ f' ∈ g, f' ≠ f → parseGraceFile f' = parseGraceFile f →
      ∃ v v', versionOf f = some v ∧ versionOf f' = some v' ∧ v' ≤ v) := by
  obtain ⟨h1, h2, rfl⟩ := reduceNames_some g r h
  have hget : ∀ a ∈ g, ∀ b ∈ g, (parseGraceFile a).getD (mkSpan [] [] [] []) = (parseGraceFile b).getD (mkSpan [] [] [] []) →
      parseGraceFile a = parseGraceFile b := by
    intro a ha b hb hab
    obtain ⟨da, hda⟩ := h1 a ha
    obtain ⟨db, hdb⟩ := h1 b hb
    rw [hda, hdb] at hab ⊢
    simpa using hab
  have hm := fun f hf => reduce_mem_newest (fun f => (parseGraceFile f).getD (mkSpan [] [] [] []))
    (fun f => (((versionOf f).getD 0 : ℕ) : ℤ)) g f hf
  refine ⟨fun f hf => (hm f hf).1, ?_, ?_, ?_⟩
  · intro f hf
    obtain ⟨k, hk, -⟩ := reduce_one_per_date (fun f => (parseGraceFile f).getD (mkSpan [] [] [] []))
      (fun f => (((versionOf f).getD 0 : ℕ) : ℤ)) g f hf
    exact ⟨_, List.get_mem _ k, hget _ (hm _ (List.get_mem _ k)).1 _ hf hk⟩
  · have hs := reduce_strictly_sorted (fun f => (parseGraceFile f).getD (mkSpan [] [] [] []))
      (fun f => (((versionOf f).getD 0 : ℕ) : ℤ)) g
    rw [List.Nodup, List.pairwise_map]
    rw [List.pairwise_map] at hs
    refine hs.imp ?_
    intro a b hlt he
    rw [he] at hlt
    exact lt_irrefl _ hlt
  · intro f hf f' hf' hne hd
    obtain ⟨v, hv⟩ := h2 f (hm f hf).1 (count_two g f f' (hm f hf).1 hf' hne.symm hd.symm)
    obtain ⟨v', hv'⟩ := h2 f' hf' (count_two g f' f hf' (hm f hf).1 hne hd)
    refine ⟨v, v', hv, hv', ?_⟩
    have := (hm f hf).2 f' hf' (by simp only [hd])
    simp only [hv, hv', Option.getD_some] at this
    exact_mod_cast this

/-- the order of the list does not matter if no two different names have the same dates and version -/
theorem reduceNames_perm (g g' : List Name) (hp : g.Perm g')
    (hv : ∀ a ∈ g, ∀ b ∈ g, parseGraceFile a = parseGraceFile b → versionOf a = versionOf b → a = b) :
    reduceNames g = reduceNames g' := by
  have hmem : ∀ f, f ∈ g ↔ f ∈ g' := fun f => hp.mem_iff
  have hcount : ∀ d, (g.map parseGraceFile).count d = (g'.map parseGraceFile).count d :=
    fun d => (hp.map parseGraceFile).count_eq d
  unfold reduceNames
  simp only [hmem, hcount]
  split_ifs with h1 h2
  · rfl
  · rfl
  · congr 1
    push Not at h1 h2
    apply reduce_order_independent _ _ _ _ hp
    intro a ha b hb hab hvv
    by_contra hne
    have hpd : parseGraceFile a = parseGraceFile b := by
      have ha' := h1 a ((hmem a).1 ha)
      have hb' := h1 b ((hmem b).1 hb)
      cases h3 : parseGraceFile a with
      | none => exact absurd h3 ha'
      | some x =>
        cases h4 : parseGraceFile b with
        | none => exact absurd h4 hb'
        | some y => rw [h3, h4] at hab; simpa using hab
    have ca := h2 a ((hmem a).1 ha) (by rw [← hcount]; exact count_two g a b ha hb hne hpd)
    have cb := h2 b ((hmem b).1 hb) (by rw [← hcount]; exact count_two g b a hb ha (Ne.symm hne) hpd.symm)
    apply hne
    apply hv a ha b hb hpd
    cases h3 : versionOf a with
    | none => exact absurd h3 ca
    | some x =>
      cases h4 : versionOf b with
      | none => exact absurd h4 cb
      | some y => rw [h3, h4] at hvv; simp at hvv; rw [hvv]

/-! ## `make_grace_index` -/

theorem sortNames_perm (l : List Name) : (sortNames l).Perm l := List.perm_insertionSort _ _

theorem makeGraceIndex_some (proc drel dset : Name) (v1 v2 : Version) (dir idx : List Name)
    (h : makeGraceIndex proc drel dset v1 v2 dir = some idx) :
    ∃ rx1 rx2 r, compilePattern proc drel dset (some "GRAC".toList) "BA01".toList v1 = some rx1 ∧
      compilePattern proc drel dset (some "GRFO".toList) "BA01".toList v2 = some rx2 ∧
      reduceNames (dir.filter (accepts rx1 ·) ++ dir.filter (accepts rx2 ·)) = some r ∧ idx = sortNames r := by
  unfold makeGraceIndex filesFor at h
  simp only [Option.bind_eq_bind, Option.bind_eq_some_iff, Option.map_eq_some_iff, Option.pure_def, Option.some.injEq] at h
  obtain ⟨a, ⟨rx1, h1, rfl⟩, b, ⟨rx2, h2, rfl⟩, r, h3, rfl⟩ := h
  exact ⟨rx1, rx2, r, h1, h2, h3, rfl⟩

/-- the index of `make_grace_index.py`: sorted; only files of the directory that belong to the product; one for each of
the dates among these files, and always the newest version -/
theorem index_spec (proc drel dset : Name) (v1 v2 : Version) (dir idx : List Name)
    (h : makeGraceIndex proc drel dset v1 v2 dir = some idx) :
    idx.Pairwise (· ≤ ·) ∧
    (∀ f ∈ idx, f ∈ dir ∧ Wanted proc drel dset v1 v2 f) ∧
    (∀ f ∈ dir, Wanted proc drel dset v1 v2 f → ∃ f' ∈ idx, parseGraceFile f' = parseGraceFile f) ∧
    (idx.map parseGraceFile).Nodup ∧
    (∀ f ∈ idx, ∀ f' ∈ dir, Wanted proc drel dset v1 v2 f' → f' ≠ f → parseGraceFile f' = parseGraceFile f →
      ∃ v v', versionOf f = some v ∧ versionOf f' = some v' ∧ v' ≤ v) := by
  obtain ⟨rx1, rx2, r, h1, h2, h3, rfl⟩ := makeGraceIndex_some _ _ _ _ _ _ _ h
  obtain ⟨s1, s2, s3, s4⟩ := reduceNames_spec _ _ h3
  have hw : ∀ f, Wanted proc drel dset v1 v2 f ↔ accepts rx1 f = true ∨ accepts rx2 f = true := by
    intro f
    unfold Wanted
    rw [h1, h2]
    simp
  have hin : ∀ f, f ∈ dir.filter (accepts rx1 ·) ++ dir.filter (accepts rx2 ·) ↔ f ∈ dir ∧ Wanted proc drel dset v1 v2 f := by
    intro f
    rw [hw]
    simp only [List.mem_append, List.mem_filter]
    tauto
  refine ⟨List.pairwise_insertionSort _ _, ?_, ?_, ?_, ?_⟩
  · intro f hf
    rw [← hin]
    exact s1 f ((sortNames_perm r).mem_iff.1 hf)
  · intro f hf hwf
    obtain ⟨f', hf', he⟩ := s2 f ((hin f).2 ⟨hf, hwf⟩)
    exact ⟨f', (sortNames_perm r).mem_iff.2 hf', he⟩
  · exact ((sortNames_perm r).map parseGraceFile).nodup_iff.2 s3
  · intro f hf f' hf' hwf' hne hd
    exact s4 f ((sortNames_perm r).mem_iff.1 hf) f' ((hin f').2 ⟨hf', hwf'⟩) hne hd

/-- the index does not depend on the order in which the directory is listed, if no two files of the product have the
same dates and version -/
theorem index_order (proc drel dset : Name) (v1 v2 : Version) (dir dir' : List Name) (hp : dir.Perm dir')
    (hv : ∀ a ∈ dir, ∀ b ∈ dir, Wanted proc drel dset v1 v2 a → Wanted proc drel dset v1 v2 b →
      parseGraceFile a = parseGraceFile b → versionOf a = versionOf b → a = b) :
    makeGraceIndex proc drel dset v1 v2 dir = makeGraceIndex proc drel dset v1 v2 dir' := by
  unfold makeGraceIndex filesFor
  cases h1 : compilePattern proc drel dset (some "GRAC".toList) "BA01".toList v1 with
  | none => rfl
  | some rx1 =>
    cases h2 : compilePattern proc drel dset (some "GRFO".toList) "BA01".toList v2 with
    | none => rfl
    | some rx2 =>
      simp only [Option.map_some, Option.bind_eq_bind, Option.bind_some]
      rw [reduceNames_perm _ (dir'.filter (accepts rx1 ·) ++ dir'.filter (accepts rx2 ·))
        ((hp.filter _).append (hp.filter _))]
      intro a ha b hb
      have hw : ∀ f, f ∈ dir.filter (accepts rx1 ·) ++ dir.filter (accepts rx2 ·) → f ∈ dir ∧ Wanted proc drel dset v1 v2 f := by
        intro f hf
        simp only [List.mem_append, List.mem_filter] at hf
        rcases hf with ⟨hf, ha⟩ | ⟨hf, ha⟩
        · exact ⟨hf, Or.inl ⟨rx1, h1, ha⟩⟩
        · exact ⟨hf, Or.inr ⟨rx2, h2, ha⟩⟩
      exact hv a (hw a ha).1 b (hw b hb).1 (hw a ha).2 (hw b hb).2

/-- Release-05 fields of GFZ: every field is found for both missions, and since the version `005a` cannot be read,
`make_grace_index.py` stops with an exception as soon as there is any field -/
theorem index_gfz_rl05_raises (v1 v2 : Version) (dir : List Name) (hn : ∀ f ∈ dir, '\n' ∉ f) (f : Name) (hf : f ∈ dir)
    (hw : Wanted "GFZ".toList "RL05".toList "GSM".toList v1 v2 f) :
    makeGraceIndex "GFZ".toList "RL05".toList "GSM".toList v1 v2 dir = none := by
  have hold : ∃ t, OldTail "GFZ".toList "RL05".toList "GSM".toList t :=
    ⟨"_EIGEN_G---_005a".toList, by simp [OldTail]⟩
  obtain ⟨rx1, h1, k1⟩ := old_names "GFZ".toList "RL05".toList "GSM".toList (by unfold Product; decide) hold
    (some "GRAC".toList) (by simp [MissionOk]) "BA01".toList v1
  obtain ⟨rx2, h2, k2⟩ := old_names "GFZ".toList "RL05".toList "GSM".toList (by unfold Product; decide) hold
    (some "GRFO".toList) (by simp [MissionOk]) "BA01".toList v2
  have hacc : accepts rx1 f = true ∧ accepts rx2 f = true := by
    rcases hw with ⟨rx, hr, ha⟩ | ⟨rx, hr, ha⟩
    · rw [h1] at hr
      obtain rfl := Option.some.inj hr
      exact ⟨ha, (k2 f).2 ((k1 f).1 ha)⟩
    · rw [h2] at hr
      obtain rfl := Option.some.inj hr
      exact ⟨(k1 f).2 ((k2 f).1 ha), ha⟩
  have hver := version_gfz_rl05 f (hn f hf) ((k1 f).1 hacc.1)
  have hnone : reduceNames (dir.filter (accepts rx1 ·) ++ dir.filter (accepts rx2 ·)) = none := by
    rw [reduceNames_raises_iff]
    right
    refine ⟨f, by simp [hf, hacc], ?_, hver⟩
    rw [List.map_append, List.count_append]
    have p1 : 0 < ((dir.filter (accepts rx1 ·)).map parseGraceFile).count (parseGraceFile f) :=
      List.count_pos_iff.2 (List.mem_map_of_mem (by simp [hf, hacc]))
    have p2 : 0 < ((dir.filter (accepts rx2 ·)).map parseGraceFile).count (parseGraceFile f) :=
      List.count_pos_iff.2 (List.mem_map_of_mem (by simp [hf, hacc]))
    omega
  unfold makeGraceIndex filesFor
  rw [h1, h2]
  simp only [Option.map_some, Option.bind_eq_bind, Option.bind_some, hnone, Option.bind_none]

/-! ## The index files of the programs that fetch the data -/

/-- the index of `gfz_isdc_grace_ftp.py` and `podaac_cumulus.py` for Release-06 fields: sorted, only files of the
directory; for each mission one file for each of the dates, and always the newest version -/
theorem sync_index_spec (proc drel dset : Name) (dir idx : List Name) (h : syncIndex proc drel dset dir = some idx) :
    idx.Pairwise (· ≤ ·) ∧
    ∃ rx1 rx2 r1 r2, compilePattern proc drel dset (some "GRAC".toList) "BA01".toList .any = some rx1 ∧
      compilePattern proc drel dset (some "GRFO".toList) "BA01".toList .any = some rx2 ∧ idx.Perm (r1 ++ r2) ∧
      ∀ x ∈ [(rx1, r1), (rx2, r2)],
        (∀ f ∈ x.2, f ∈ dir ∧ accepts x.1 f = true) ∧
        (∀ f ∈ dir, accepts x.1 f = true → ∃ f' ∈ x.2, parseGraceFile f' = parseGraceFile f) ∧
        (x.2.map parseGraceFile).Nodup ∧
        (∀ f ∈ x.2, ∀ f' ∈ dir, accepts x.1 f' = true → f' ≠ f → parseGraceFile f' = parseGraceFile f →
          ∃ v v', versionOf f = some v ∧ versionOf f' = some v' ∧ v' ≤ v) := by
  unfold syncIndex filesFor at h
  simp only [Option.bind_eq_bind, Option.bind_eq_some_iff, Option.map_eq_some_iff, Option.pure_def, Option.some.injEq] at h
  obtain ⟨a, ⟨rx1, h1, rfl⟩, r1, hr1, b, ⟨rx2, h2, rfl⟩, r2, hr2, rfl⟩ := h
  refine ⟨List.pairwise_insertionSort _ _, rx1, rx2, r1, r2, h1, h2, sortNames_perm _, ?_⟩
  have main : ∀ rx r, reduceNames (sortNames (dir.filter (accepts rx ·))) = some r →
      (∀ f ∈ r, f ∈ dir ∧ accepts rx f = true) ∧
        (∀ f ∈ dir, accepts rx f = true → ∃ f' ∈ r, parseGraceFile f' = parseGraceFile f) ∧
        (r.map parseGraceFile).Nodup ∧
        (∀ f ∈ r, ∀ f' ∈ dir, accepts rx f' = true → f' ≠ f → parseGraceFile f' = parseGraceFile f →
          ∃ v v', versionOf f = some v ∧ versionOf f' = some v' ∧ v' ≤ v) := by
    intro rx r hr
    obtain ⟨s1, s2, s3, s4⟩ := reduceNames_spec _ _ hr
    have hin : ∀ f, f ∈ sortNames (dir.filter (accepts rx ·)) ↔ f ∈ dir ∧ accepts rx f = true := by
      intro f
      rw [(sortNames_perm _).mem_iff, List.mem_filter]
    exact ⟨fun f hf => (hin f).1 (s1 f hf), fun f hf ha => s2 f ((hin f).2 ⟨hf, ha⟩), s3,
      fun f hf f' hf' ha hne hd => s4 f hf f' ((hin f').2 ⟨hf', ha⟩) hne hd⟩
  intro x hx
  simp only [List.mem_cons, List.not_mem_nil, or_false] at hx
  rcases hx with rfl | rfl
  · exact main rx1 r1 hr1
  · exact main rx2 r2 hr2

/-- the patterns of the releases 4 and 5 do not look at the mission: the index of these two programs lists every file
twice -/
theorem sync_index_old_twice (proc drel dset : Name) (hd : Product dset) (ho : ∃ t, OldTail proc drel dset t)
    (dir idx : List Name) (h : syncIndex proc drel dset dir = some idx) :
    ∃ r : List Name, idx.Perm (r ++ r) ∧ (r.map parseGraceFile).Nodup ∧ ∀ f ∈ idx, idx.count f = 2 := by
  unfold syncIndex filesFor at h
  simp only [Option.bind_eq_bind, Option.bind_eq_some_iff, Option.map_eq_some_iff, Option.pure_def, Option.some.injEq] at h
  obtain ⟨a, ⟨rx1, h1, rfl⟩, r1, hr1, b, ⟨rx2, h2, rfl⟩, r2, hr2, rfl⟩ := h
  obtain ⟨rx1', h1', k1⟩ := old_names proc drel dset hd ho (some "GRAC".toList) (by simp [MissionOk]) "BA01".toList .any
  obtain ⟨rx2', h2', k2⟩ := old_names proc drel dset hd ho (some "GRFO".toList) (by simp [MissionOk]) "BA01".toList .any
  rw [h1] at h1'
  rw [h2] at h2'
  obtain rfl := Option.some.inj h1'
  obtain rfl := Option.some.inj h2'
  have hsame : dir.filter (accepts rx1 ·) = dir.filter (accepts rx2 ·) := by
    apply List.filter_congr
    intro f _
    rw [Bool.eq_iff_iff, k1, k2]
  rw [hsame, hr2] at hr1
  obtain rfl := Option.some.inj hr1
  obtain ⟨-, -, s3, -⟩ := reduceNames_spec _ _ hr2
  refine ⟨r2, sortNames_perm _, s3, ?_⟩
  intro f hf
  rw [(sortNames_perm _).count_eq, List.count_append]
  have hm : f ∈ r2 := by
    have := (sortNames_perm (r2 ++ r2)).mem_iff.1 hf
    simpa using this
  rw [List.count_eq_one_of_mem s3.of_map hm]

end Verif.Names
