import Verif.MonthsIndex.Props
import Verif.Dates.Props

/-!
# C100: the index after the dates have been written

`run_grace_date` writes the date files of the datasets asked for and then the index of months: the index shows, for each
month, the dates of the file that `grace_date` gives for the month.
-/
namespace Verif.MonthsIndex
open Verif.Time Verif.Dates Verif.SLR Verif.SpatialIO Verif.MonthsIndex.Spec

/-- the datasets whose date files are written anew -/
def Redated (proc drel : List Text) (p r : Text) : Prop :=
  p ∈ proc ∧ r ∈ drel ∧ r ∈ ["RL04".toList, "RL05".toList, "RL06".toList]

/-- **Which date files are written**: those of the centers and releases asked for, as far as the release exists; the other
date files stay as they are. -/
theorem run_disk (data : Text → Text → Text → List FileDates) (disk : Disk) (proc drel : List Text) (p r : Text) :
    (Redated proc drel p r → (runGraceDate data disk proc drel).1 p r = some (datesFile false (data p r "GSM".toList))) ∧
    (¬ Redated proc drel p r → (runGraceDate data disk proc drel).1 p r = disk p r) := by
  have key : ∀ (cs : List (Text × Text × Text)) (d : Disk),
      ((p, r, "GSM".toList) ∈ cs → cs.foldl (dateCall data) d p r = some (datesFile false (data p r "GSM".toList))) ∧
      ((p, r, "GSM".toList) ∉ cs → cs.foldl (dateCall data) d p r = d p r) := by
    intro cs
    induction cs with
    | nil => intro d; simp
    | cons c cs ih =>
      intro d
      rw [List.foldl_cons]
      obtain ⟨ih1, ih2⟩ := ih (dateCall data d c)
      by_cases hin : (p, r, "GSM".toList) ∈ cs
      · exact ⟨fun _ => ih1 hin, fun h => absurd (List.mem_cons_of_mem _ hin) h⟩
      · rw [ih2 hin]
        by_cases hc : c = (p, r, "GSM".toList)
        · subst hc
          refine ⟨fun _ => ?_, fun h => absurd List.mem_cons_self h⟩
          unfold dateCall
          simp
        · refine ⟨fun h => ?_, fun _ => ?_⟩
          · rcases List.mem_cons.1 h with h | h
            · exact absurd h.symm hc
            · exact absurd h hin
          · obtain ⟨a, b, e⟩ := c
            unfold dateCall
            split_ifs with h1
            · dsimp only at h1 ⊢
              rw [if_neg]
              rintro ⟨rfl, rfl⟩
              exact hc (by rw [h1])
            · rfl
  have hmem : (p, r, "GSM".toList) ∈ dateCalls proc drel ↔ Redated proc drel p r := by
    unfold dateCalls Redated
    simp only [List.mem_flatMap, List.mem_filter, List.mem_map, Prod.mk.injEq, decide_eq_true_eq]
    constructor
    · rintro ⟨p', hp, r', ⟨hr, hv⟩, d, _, rfl, rfl, _⟩
      exact ⟨hp, hr, hv⟩
    · rintro ⟨hp, hr, hv⟩
      refine ⟨p, hp, r, ⟨hr, hv⟩, "GSM".toList, ?_, rfl, rfl, rfl⟩
      unfold products
      split_ifs <;> decide
  unfold runGraceDate
  dsimp only
  rw [← hmem]
  exact key _ _

/-- what the date file of some data files says -/
def written {N : Type} (files : List (N × FileDates)) : List Dated :=
  ((months false (files.map Prod.snd)).zip (files.map Prod.snd)).map fun p => datedOf p.1 p.2

theorem written_months {N : Type} (files : List (N × FileDates)) :
    (written files).map Dated.mon = months false (files.map Prod.snd) := by
  unfold written
  rw [List.map_map]
  have : (Dated.mon ∘ fun p : ℤ × FileDates => datedOf p.1 p.2) = Prod.fst := rfl
  rw [this, List.map_fst_zip]
  rw [months_length]

/-- **The dictionary and the date file agree** (no month twice): the file of a month in the dictionary has its dates on the
line of the month, and a month that is not in the dictionary is not in the date file. -/
theorem written_dictionary {N : Type} (files : List (N × FileDates)) (hn : (months false (files.map Prod.snd)).Nodup) (m : ℤ) :
    (∀ n, graceDate false files m = some n → ∃ f, (n, f) ∈ files ∧
      (⟨m, f.startYr, npRound f.startDay, f.endYr, npRound f.endDay⟩ : Dated) ∈ written files) ∧
    (graceDate false files m = none → ∀ d ∈ written files, d.mon ≠ m) := by
  have hlen : (months false (files.map Prod.snd)).length = (files.map Prod.fst).length := by
    rw [months_length]; simp
  have hkeys := buildDict_keys (months false (files.map Prod.snd)) (files.map Prod.fst) hlen m
  constructor
  · intro n hgn
    unfold graceDate at hgn
    have hm := hkeys.1 (by rw [hgn]; rfl)
    obtain ⟨t, ht, rfl⟩ := List.getElem_of_mem hm
    have ht' : t < files.length := by simpa [months_length] using ht
    have hlast := buildDict_last (months false (files.map Prod.snd)) (files.map Prod.fst) hlen t ht (by
      intro s hs hs' he
      have := (List.Nodup.getElem_inj_iff hn).1 he
      omega)
    rw [hgn] at hlast
    have hname : n = files[t].1 := by simpa using hlast
    refine ⟨files[t].2, ?_, ?_⟩
    · rw [hname]; exact List.getElem_mem ht'
    · unfold written
      refine List.mem_map.2 ⟨((months false (files.map Prod.snd))[t], files[t].2), ?_, rfl⟩
      rw [List.mem_iff_getElem]
      refine ⟨t, by simp [months_length, ht'], by simp⟩
  · intro hgn d hd he
    have : m ∈ (written files).map Dated.mon := List.mem_map.2 ⟨d, hd, he⟩
    rw [written_months] at this
    have := hkeys.2 this
    unfold graceDate at hgn
    rw [hgn] at this
    simp at this

/-- at most one line of a month in a date file without repeated months -/
theorem fits_nodup (rows : List Dated) (hn : (rows.map Dated.mon).Nodup) (h2 : rows.length ≠ 1) (m : ℤ) : Fits rows m := by
  refine ⟨?_, fun h => absurd h h2⟩
  clear h2
  induction rows with
  | nil => simp
  | cons d rows ih =>
    rw [List.map_cons, List.nodup_cons] at hn
    rw [List.filter_cons]
    split_ifs with hd
    · have : rows.filter (fun d => d.mon = m) = [] := by
        rw [List.filter_eq_nil_iff]
        intro e he h
        simp at hd h
        exact hn.1 (List.mem_map.2 ⟨e, he, by rw [h, hd]⟩)
      rw [this]; simp
    · exact ih hn.2

/-- **The index after `run_grace_date`.** Every dataset asked for has at least two data files, no two of the same month,
with years of four digits; the date files that are not written anew can be shown. Then the index is written, and in the
column of a dataset asked for, the line of a month shows the dates of the file that `grace_date` gives for the month, or
that the month is missing when there is none. Every month of `grace_date` from April 2002 on has its line. -/
theorem run_shows {N : Type} (files : Text → Text → List (N × FileDates)) (data : Text → Text → Text → List FileDates)
    (hdata : ∀ p r, data p r "GSM".toList = (files p r).map Prod.snd)
    (disk : Disk) (proc drel : List Text) (hproc : ∀ p ∈ proc, p ∈ ["CSR".toList, "GFZ".toList, "JPL".toList])
    (hnew : ∀ p r, Redated proc drel p r → 2 ≤ (files p r).length ∧ (months false ((files p r).map Prod.snd)).Nodup ∧
      (∀ m ∈ months false ((files p r).map Prod.snd), 0 ≤ m ∧ m < 1000) ∧
      ∀ x ∈ files p r, 1000 ≤ x.2.startYr ∧ x.2.startYr < 10000 ∧ 0 ≤ npRound x.2.startDay ∧ npRound x.2.startDay < 1000 ∧
        1000 ≤ x.2.endYr ∧ x.2.endYr < 10000 ∧ 0 ≤ npRound x.2.endDay ∧ npRound x.2.endDay < 1000)
    (old : Text → Text → List Dated)
    (hold : ∀ p r, Listed disk drel p r → ¬ Redated proc drel p r → (∃ f, disk p r = some f ∧ DateFile f (old p r)) ∧
      old p r ≠ [] ∧ (∀ d ∈ old p r, Ordinary d ∧ d.mon < 1000) ∧ ∀ m, 4 ≤ m → Fits (old p r) m)
    (h21 : ∀ r ∈ drel, r.length ≤ 16) (hsome : ∃ p r, Redated proc drel p r) :
    ∃ header lines names, (runGraceDate data disk proc drel).2 = (header :: lines, none) ∧
      HeadOf (runGraceDate data disk proc drel).1 drel names header ∧
      ∀ p r, Redated proc drel p r → ∃ k, names[k]? = some (name p r) ∧ ∀ m, 4 ≤ m →
        (∀ n, graceDate false (files p r) m = some n → ∃ line f, lines[(m - 4).toNat]? = some line ∧ Label (line.take 11) m ∧
          (n, f) ∈ files p r ∧
          Blanked (column line k) (range ⟨m, f.startYr, npRound f.startDay, f.endYr, npRound f.endDay⟩)) ∧
        (graceDate false (files p r) m = none → ∀ line, lines[(m - 4).toNat]? = some line →
          Blanked (column line k) "** missing **".toList) := by
  classical
  let disk' := (runGraceDate data disk proc drel).1
  have hd := run_disk data disk proc drel
  let rows : Text → Text → List Dated := fun p r => if Redated proc drel p r then written (files p r) else old p r
  have hr1 : ∀ p r, Redated proc drel p r → rows p r = written (files p r) := fun p r h => if_pos h
  have hr2 : ∀ p r, ¬ Redated proc drel p r → rows p r = old p r := fun p r h => if_neg h
  have hlisted : ∀ p r, Listed disk' drel p r → ¬ Redated proc drel p r → Listed disk drel p r := by
    intro p r h hn
    refine ⟨h.1, h.2.1, ?_⟩
    have := h.2.2
    change ((runGraceDate data disk proc drel).1 p r).isSome = true at this
    rwa [(hd p r).2 hn] at this
  have hre : ∀ p r, Redated proc drel p r → Listed disk' drel p r := by
    intro p r h
    refine ⟨?_, h.2.1, ?_⟩
    · have := hproc p h.1
      simp only [List.mem_cons, List.not_mem_nil, or_false] at this ⊢
      tauto
    · change ((runGraceDate data disk proc drel).1 p r).isSome = true
      rw [(hd p r).1 h]; rfl
  have hwl : ∀ p r, (written (files p r)).length = (files p r).length := by
    intro p r
    have := congrArg List.length (written_months (files p r))
    rw [List.length_map, months_length, List.length_map] at this
    exact this
  have hg : ∀ p r, Listed disk' drel p r → ∃ f, disk' p r = some f ∧ DateFile f (rows p r) ∧ rows p r ≠ [] := by
    intro p r hl
    by_cases h : Redated proc drel p r
    · refine ⟨_, (hd p r).1 h, ?_, ?_⟩
      · rw [hr1 p r h, hdata]; exact datesFile_dated false _
      · rw [hr1 p r h, ← List.length_pos_iff, hwl]
        have := (hnew p r h).1; omega
    · obtain ⟨⟨f, hf, hdf⟩, hne, _⟩ := hold p r (hlisted p r hl h) h
      exact ⟨f, by change (runGraceDate data disk proc drel).1 p r = _; rw [(hd p r).2 h]; exact hf, by rw [hr2 p r h]; exact hdf,
        by rw [hr2 p r h]; exact hne⟩
  have hbase : ∀ p r, Redated proc drel p r → ∀ d ∈ written (files p r), Ordinary d ∧ 0 ≤ d.mon ∧ d.mon < 1000 := by
    intro p r h d hdm
    obtain ⟨_, _, h3, h4⟩ := hnew p r h
    have hm : d.mon ∈ (written (files p r)).map Dated.mon := List.mem_map.2 ⟨d, hdm, rfl⟩
    rw [written_months] at hm
    refine ⟨?_, h3 _ hm⟩
    unfold written at hdm
    obtain ⟨q, hq, rfl⟩ := List.mem_map.1 hdm
    have hf := (List.of_mem_zip (a := q.1) (b := q.2) hq).2
    obtain ⟨x, hx, e⟩ := List.mem_map.1 hf
    have := h4 x hx
    rw [e] at this
    exact this
  have hord : ∀ p r, Listed disk' drel p r → ∀ d ∈ rows p r, Ordinary d ∧ d.mon < 1000 := by
    intro p r hl d hdm
    by_cases h : Redated proc drel p r
    · rw [hr1 p r h] at hdm
      have := hbase p r h d hdm
      exact ⟨this.1, this.2.2⟩
    · rw [hr2 p r h] at hdm
      exact (hold p r (hlisted p r hl h) h).2.2.1 d hdm
  have hfit : ∀ p r, Listed disk' drel p r → ∀ m, 4 ≤ m → Fits (rows p r) m := by
    intro p r hl m h4
    by_cases h : Redated proc drel p r
    · rw [hr1 p r h]
      obtain ⟨h2, hn, _⟩ := hnew p r h
      exact fits_nodup _ (by rw [written_months]; exact hn) (by rw [hwl]; omega) m
    · rw [hr2 p r h]
      exact (hold p r (hlisted p r hl h) h).2.2.2 m h4
  obtain ⟨info, mx, h1, _, _, hmx0, hup, hreach⟩ := readAll_ok disk' drel rows hg
  obtain ⟨p0, r0, h0⟩ := hsome
  obtain ⟨d0, hd0⟩ : ∃ d, d ∈ rows p0 r0 := List.exists_mem_of_ne_nil _ (hg p0 r0 (hre p0 r0 h0)).choose_spec.2.2
  have hM' : ∃ p r, Listed disk' drel p r ∧ ∃ d ∈ rows p r, d.mon = mx := by
    rcases hreach with h | h
    · refine ⟨p0, r0, hre p0 r0 h0, d0, hd0, ?_⟩
      have a := hup p0 r0 (hre p0 r0 h0) d0 hd0
      rw [hr1 p0 r0 h0] at hd0
      have b := (hbase p0 r0 h0 d0 hd0).2.1
      omega
    · exact h
  have h9 : mx < 1000 := by
    obtain ⟨p, r, hl, d, hdm, rfl⟩ := hM'
    exact (hord p r hl d hdm).2
  obtain ⟨header, lines, names, hrun, hhead, hlen, hlines⟩ := index_written disk' drel rows mx hg hup hM' h9 hmx0
    (by
      intro p r hl
      have h3 : p.length ≤ 4 := by
        have := hl.1
        simp only [List.mem_cons, List.not_mem_nil, or_false] at this
        rcases this with rfl | rfl | rfl | rfl <;> decide
      have := h21 r hl.2.1
      simp only [name, List.length_append, List.length_singleton]
      omega)
    (fun p r hl d hdm => (hord p r hl d hdm).1) hfit
  refine ⟨header, lines, names, hrun, hhead, ?_⟩
  intro p r h
  obtain ⟨k, hk⟩ := List.mem_iff_getElem?.1 ((hhead.2.1 (name p r)).2 ⟨p, r, hre p r h, rfl⟩)
  refine ⟨k, hk, ?_⟩
  intro m h4
  obtain ⟨hdic1, hdic2⟩ := written_dictionary (files p r) (hnew p r h).2.1 m
  constructor
  · intro n hn
    obtain ⟨f, hf, hw⟩ := hdic1 n hn
    rw [← hr1 p r h] at hw
    obtain ⟨line, hl1, hl2⟩ := hlines m h4 (hup p r (hre p r h) _ hw)
    exact ⟨line, f, hl1, hl2.1, hf, (hl2.2.2 k p r (hre p r h) hk).1 _ hw rfl⟩
  · intro hn line hl
    have hm : m ≤ mx := by
      by_contra hlt
      rw [List.getElem?_eq_none (by rw [hlen]; omega)] at hl
      simp at hl
    obtain ⟨line', hl1, hl2⟩ := hlines m h4 hm
    rw [hl] at hl1
    cases hl1
    exact (hl2.2.2 k p r (hre p r h) hk).2 (by rw [hr1 p r h]; exact hdic2 hn)

end Verif.MonthsIndex
