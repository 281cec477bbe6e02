import Verif.Names.Index

/-!
# Concrete cases for the theorems on file names
-/
namespace Verif.Names

/-- names of a GRACE field in two versions, of another solution, and of another file -/
def sampleDir : List Name :=
  ["GSM-2_2002123-2002137_GRAC_UTCSR_BA01_0600.gz", "GSM-2_2002123-2002137_GRAC_UTCSR_BA01_0602.gz",
    "GSM-2_2018152-2018181_GRFO_UTCSR_BB01_0601.gz", "index.txt"].map String.toList

-- hypotheses of `rl06_names`, `rl06_no_mission`
example : Center06 "CSR".toList "UTCSR".toList ∧ MissionOk (some "GRAC".toList) ∧ Digits "2002095".toList := by
  refine ⟨.csr, by simp [MissionOk], by decide, by decide⟩
example : ((compilePattern "CSR".toList "RL06".toList "GSM".toList (some "GRAC".toList) "BA01".toList (.num "0".toList)).map
    fun rx => sampleDir.map (accepts rx)) = some [true, false, false, false] := by decide +kernel
-- hypotheses of `old_names`, `sync_index_old_twice`
example : Product "GSM".toList ∧ (∃ t, OldTail "CSR".toList "RL05".toList "GSM".toList t) := by
  refine ⟨by unfold Product; decide, "_UTCSR_0060_0005".toList, by simp [OldTail]⟩
-- hypotheses of `lri_names` and `lriRelease_text`
example : "LRI".toList <:+ "RL06.1_LRI".toList ∧ lriRelease "RL06.1_LRI".toList = some ("06".toList, "1".toList) :=
  ⟨⟨"RL06.1_".toList, rfl⟩, by decide +kernel⟩
-- hypotheses of `dealias_names`, `dealias_names_all`, `dealias_old_missed`
example : Dealias "CSR".toList "RL05".toList "GAC".toList ∧ Product "GAC".toList ∧
    ¬ "GRAC".toList <:+: "GAC".toList ++ "-2_2005001-2005031_0025_UTCSR_0000_0005.gz".toList := by
  refine ⟨Or.inl ⟨rfl, Or.inl (by decide)⟩, by unfold Product; decide, ?_⟩
  -- no `A` behind the first three letters
  rintro ⟨s, t, h⟩
  have h3 : (s ++ "GRAC".toList ++ t)[s.length + 2]? = some 'A' := by
    rw [List.append_assoc, List.getElem?_append_right (by omega)]
    simp
  rw [h] at h3
  rcases hs : s.length with _ | n
  · have : s = [] := List.length_eq_zero_iff.1 hs
    subst this
    simp at h
  · rw [hs] at h3
    have : ("C-2_2005001-2005031_0025_UTCSR_0000_0005.gz".toList)[n + 1]? = some 'A' := by
      simpa using h3
    have hm := List.mem_of_getElem? this
    revert hm
    decide
-- the exceptions of `compile_regex_pattern`
example : compilePattern "CSR".toList "RL06_LRI".toList "GSM".toList none "BA01".toList .any = none ∧
    compilePattern "CSR".toList "RL06".toList "GSM".toList (some "GRACE".toList) "BA01".toList .any = none := by
  decide +kernel

/-- `GSM-2_2002095-2002120_` -/
def sampleHead : Head := ⟨"GSM".toList, "2002".toList, "095".toList, "2002".toList, "120".toList⟩

-- hypotheses of `parse_name` and `version_name`
example : sampleHead.Ok ∧ '-' ∉ sampleHead.pfx ∧ TailOk "GRAC_UTCSR_BA01_0603.gz".toList ∧
    "UTCSR".toList ∈ Centers ∧ '_' ∉ "GRAC".toList ∧ DigitsN 2 "06".toList ∧
    '\n' ∉ sampleHead.text ++ "GRAC_UTCSR_BA01_0603.gz".toList := by
  refine ⟨⟨⟨by decide, by decide⟩, ⟨by decide, by decide⟩, ⟨by decide, by decide⟩, ⟨by decide, by decide⟩⟩, by decide, ⟨"GRAC".toList, "UTCSR".toList, "BA01".toList, '0',
    "603.gz".toList, by decide, by decide, by decide⟩, by decide, by decide, ⟨by decide, by decide⟩, by decide⟩
example : parseGraceFile "GSM-2_2002095-2002120_GRAC_UTCSR_BA01_0603.gz".toList =
    some (mkSpan "2002".toList "095".toList "2002".toList "120".toList) := by decide +kernel
example : versionOf "GSM-2_2002095-2002120_GRAC_UTCSR_BA01_0603.gz".toList = some 3 := by decide +kernel
-- digits of another number: accepted by the pattern, but without dates
example : ((compilePattern "CSR".toList "RL06".toList "GSM".toList (some "GRAC".toList) "BA01".toList .any).map
    fun rx => accepts rx "GSM-2_200209-200212_GRAC_UTCSR_BA01_0600".toList) = some true ∧
    parseGraceFile "GSM-2_200209-200212_GRAC_UTCSR_BA01_0600".toList = none := by decide +kernel
-- `version_gfz_rl05`
example : versionOf "GSM-2_2005001-2005031_0029_EIGEN_GK2-_005a.gz".toList = none := by decide +kernel

-- the index of the sample directory
example : makeGraceIndex "CSR".toList "RL06".toList "GSM".toList .any .any sampleDir = some
    ["GSM-2_2002123-2002137_GRAC_UTCSR_BA01_0602.gz".toList] := by decide +kernel
example : syncIndex "CSR".toList "RL06".toList "GSM".toList sampleDir =
    some ["GSM-2_2002123-2002137_GRAC_UTCSR_BA01_0602.gz".toList] := by decide +kernel
-- hypothesis of `index_order`: the two files of the product that have the same dates have different versions
example : versionOf "GSM-2_2002123-2002137_GRAC_UTCSR_BA01_0600.gz".toList ≠
    versionOf "GSM-2_2002123-2002137_GRAC_UTCSR_BA01_0602.gz".toList := by decide +kernel
/-- compressed and uncompressed copies of one field have the same dates and version: the index depends on the order in
which the directory is listed -/
theorem index_copies_order :
    makeGraceIndex "CSR".toList "RL06".toList "GSM".toList .any .any
      (["GSM-2_2002095-2002120_GRAC_UTCSR_BA01_0600", "GSM-2_2002095-2002120_GRAC_UTCSR_BA01_0600.gz"].map String.toList) ≠
    makeGraceIndex "CSR".toList "RL06".toList "GSM".toList .any .any
      (["GSM-2_2002095-2002120_GRAC_UTCSR_BA01_0600.gz", "GSM-2_2002095-2002120_GRAC_UTCSR_BA01_0600"].map String.toList) := by
  decide +kernel
-- `sync_index_old_twice` and `index_gfz_rl05_raises`
example : syncIndex "CSR".toList "RL05".toList "GSM".toList ["GSM-2_2005001-2005031_0029_UTCSR_0060_0005.gz".toList] =
    some ["GSM-2_2005001-2005031_0029_UTCSR_0060_0005.gz".toList, "GSM-2_2005001-2005031_0029_UTCSR_0060_0005.gz".toList] := by
  decide +kernel
example : Wanted "GFZ".toList "RL05".toList "GSM".toList .any .any "GSM-2_2005001-2005031_0029_EIGEN_G---_005a.gz".toList := by
  refine Or.inl ⟨_, rfl, by decide +kernel⟩
example : makeGraceIndex "GFZ".toList "RL05".toList "GSM".toList .any .any
    ["GSM-2_2005001-2005031_0029_EIGEN_G---_005a.gz".toList] = none := by decide +kernel

end Verif.Names
