import Verif.RegMaps.Model

/-!
# C94: names of the results
-/
namespace Verif.RegMaps

/-- three digits of a number below 1000 -/
def three (n : ℕ) : List Char := [Char.ofNat (48 + n / 100 % 10), Char.ofNat (48 + n / 10 % 10), Char.ofNat (48 + n % 10)]

theorem num_three (n : ℕ) (h : n < 1000) : num 3 n = three n := by
  have : ∀ k : Fin 1000, num 3 k = three k := by decide +kernel
  exact this ⟨n, h⟩

/-- **C94** the name of a result ends with its label, the first and the last month (three digits each) and the suffix, after the
beginning that it has in common with the maps of the months -/
theorem result_name (j : Job) (suffix label : List Char) (first last month : ℕ) (h1 : first < 1000) (h2 : last < 1000)
    (h3 : month < 1000) :
    ∃ stem, inName j suffix month = stem ++ '_' :: three month ++ '.' :: suffix ∧
      outName j suffix label first last = stem ++ '_' :: label ++ '_' :: three first ++ '-' :: three last ++ '.' :: suffix := by
  refine ⟨j.stem, ?_, ?_⟩
  · rw [inName, num_three month h3]
  · rw [outName, num_three first h1, num_three last h2]

example : outName ⟨"GRACE_".toList, "cmwe".toList, "cmH2O".toList, "_r300km".toList, 60, 0, true, 4, 186, [], "ascii".toList⟩ "txt".toList
    "AS".toList 4 186 = "GRACE_cmwe_L60_r300km_FL_AS_004-186.txt".toList := by decide +kernel

end Verif.RegMaps
