import Verif.GraceText.Props2

/-!
# C91: the hypotheses of the theorems hold for concrete files
-/
namespace Verif.GraceText
open Verif.SLR Verif.Names Verif.Input Verif.Dates Verif.HarmIO Verif.SpatialIO
open Verif.GIA (Tok)
open Verif.Dealias (Job DateRow outName zpad)

/-- `GSM-2_2002095-2002120_GRAC_UTCSR_BA01_0600.gz` -/
def exName : L2Name :=
  ⟨⟨"GSM".toList, "2002".toList, "095".toList, "2002".toList, "120".toList⟩, "GRAC".toList, "UTCSR".toList, "BA01".toList,
    "0600".toList, [], ".gz".toList⟩

theorem exName_ok : exName.Ok :=
  ⟨⟨by unfold DigitsN; decide, by unfold DigitsN; decide, by unfold DigitsN; decide, by unfold DigitsN; decide⟩, by decide,
    by decide, by decide, by decide, by decide, by decide, by decide, by decide⟩

example : exName.text = "GSM-2_2002095-2002120_GRAC_UTCSR_BA01_0600.gz".toList := by decide

theorem exName_product : exName.IsProduct "GSM".toList :=
  Or.inr ⟨by rintro (h | h) <;> revert h <;> decide, by decide, rfl⟩

theorem exName_marker : exName.IsMarker "GRCOF2".toList :=
  Or.inr ⟨by rintro ⟨-, h | h | h⟩ <;> revert h <;> decide, rfl⟩

theorem exName_center : exName.IsCenter .csrJpl := Or.inl ⟨by decide, rfl⟩

/-- a product that is not one of the Level-2 products: `XYZ-2_...` (for `bad_product`) -/
example : ¬ ({ exName with head := ⟨"XYZ".toList, "2002".toList, "095".toList, "2002".toList, "120".toList⟩ } : L2Name).Special ∧
    'G' ∉ "XYZ".toList := ⟨by rintro (h | h) <;> revert h <;> decide, by decide⟩

/-- two lines of a file: one of the header and a coefficient with integer and decimal numbers -/
def exLines : List (List Char) := ["header:".toList, "GRCOF2    2    0 -.484 1E-3 0.5E-10 0.0 more".toList]

theorem exLines_says : List.Forall₂ (Says "GRCOF2".toList) exLines
    [.other, .coef 2 0 (-0.484) 0.001 (0.5 / 10 ^ 10) 0] := by
  refine .cons (.other _ (by decide) (by decide)) (.cons ?_ .nil)
  have t1 : (Tok.dec ⟨.minus, [], [4, 8, 4], none, by simp⟩).val = -0.484 := by
    norm_num [Tok.val, Lit.val, decimal, Nat.ofDigits, exVal, Sgn.val]
  have t2 : (Tok.int .none 1 [] (some (true, .minus, 3, []))).val = 0.001 := by
    norm_num [Tok.val, decimal, Nat.ofDigits, exVal, Sgn.val, zpow_neg]
  have t3 : (Tok.dec ⟨.none, [0], [5], some (true, .minus, 1, [0]), by simp⟩).val = 0.5 / 10 ^ 10 := by
    norm_num [Tok.val, Lit.val, decimal, Nat.ofDigits, exVal, Sgn.val, zpow_neg]
  have t4 : (Tok.dec ⟨.none, [0], [0], none, by simp⟩).val = 0 := by
    norm_num [Tok.val, Lit.val, decimal, Nat.ofDigits, exVal, Sgn.val]
  rw [← t1, ← t2, ← t3, ← t4]
  refine .coef _ "GRCOF2".toList "2".toList "0".toList 2 0 _ _ _ _ ["more".toList] (by decide) ?_
    ⟨.none, 2, [], by decide, by decide⟩ ⟨.none, 0, [], by decide, by decide⟩
  have := words_join [(0, "GRCOF2".toList), (3, "2".toList), (3, "0".toList), (0, "-.484".toList), (0, "1E-3".toList),
    (0, "0.5E-10".toList), (0, "0.0".toList), (0, "more".toList)] (by decide)
  exact this

/-- the file is read: all of the hypotheses of `file_read`, `file_entry` and `file_readable` hold -/
example : ∃ g, readFile (fun _ => some ()) exName.text "header:\nGRCOF2    2    0 -.484 1E-3 0.5E-10 0.0 more".toList 3 none true
    = some g ∧ g.data.eclm (2, 0) = 0.5 / 10 ^ 10 := by
  have ht : LoveText.IsText "header:\nGRCOF2    2    0 -.484 1E-3 0.5E-10 0.0 more".toList exLines :=
    ⟨by decide, Or.inr ⟨["header:".toList], _, rfl, by decide, by decide⟩⟩
  obtain ⟨g, hg⟩ := (file_readable (fun _ => some ()) exName exName_ok _ _ exName_marker exName_product _ exName_center _ _ ht _
    exLines_says 3 none true).2 ⟨⟨.yaml (), by
      have := (header_kind (fun _ => some ()) exName _ exName_marker exLines (by decide)).2.1 (by decide)
        (Or.inl ⟨by decide, by decide⟩)
      rw [this]; rfl⟩, by simp, by simp⟩
  refine ⟨g, hg, ?_⟩
  obtain ⟨-, -, -, -, hr⟩ := (file_read (fun _ => some ()) exName exName_ok _ _ exName_marker exName_product _ exName_center _ _
    ht _ exLines_says 3 none true g).1 hg
  have := (readGrace_entry _ _ _ _ _ _ _ _ _ hr 2 0 (by decide) (by decide)).2.2.1
  rw [this]
  simp [lastData, dataAt]

/-- a line with a parameter -/
example : Param "max_degree   96".toList "max_degree".toList "96".toList :=
  ⟨"   ".toList, by decide, by decide, by decide, by decide, by decide, by decide, by decide⟩

/-- the month of April 2002 of the RL06 ocean bottom pressure product: hypotheses of `written_read` -/
def exJob : Job := ⟨"CSR".toList, "RL06".toList, "GAD".toList, none, .SHM, false⟩

example : ∃ text g, toSHM (shmOf exJob 2 4 (fun l m => l + m / 3) (fun _ _ => 0) (2002, 4, 5) (2002, 4, 30)) "2024-01-01".toList =
    some text ∧ readFile (fun _ => some ()) "GAD-2_2002095-2002120_GRAC_UTCSR_BC01_0600.gz".toList text 2 none false = some g ∧
    RoundedSig 12 (4 / 3) (g.data.clm (1, 1)) := by
  let r : DateRow := ⟨2002.3, 4, 2002, 95, 2002, 120, 26⟩
  obtain ⟨text, ht⟩ := (written_iff (shmOf exJob 2 4 (fun l m => l + m / 3) (fun _ _ => 0) (2002, 4, 5) (2002, 4, 30))
    "2024-01-01".toList).2 (by decide)
  obtain ⟨s, hs⟩ := Option.isSome_iff_exists.1 (summary_some exJob.dset (by decide))
  obtain ⟨g, hg, -, -, -, -, h⟩ := written_read (fun _ => some ()) exJob r rfl (by decide) (by decide)
    ⟨by decide, by decide, by decide, by decide⟩ (by decide) 2 _ _ _ _ _ (by decide) s hs () rfl text ht 2 none false
  refine ⟨text, g, ht, ?_, ?_⟩
  · have e : outName exJob 2 r = "GAD-2_2002095-2002120_GRAC_UTCSR_BC01_0600.gz".toList := by decide +kernel
    rw [← e]; exact hg
  · have := ((h 1 1 (by decide) (by decide)).1 (by decide)).1
    norm_num at this
    exact this

example : shmIndex "GAD".toList ["GAD-2_b.gz".toList, "index.txt".toList, "GAD-2_a.gz".toList, "GAC-2_a.gz".toList] =
    ["GAD-2_a.gz".toList, "GAD-2_b.gz".toList] := by decide +kernel

end Verif.GraceText
