import Verif.Uplift.Spec

/-!
# Which archives are read (C97)
-/
namespace Verif.Uplift
open Verif.Names Verif.Time Verif.Dealias
open Verif.GeoRead (pad2 pad4)

theorem archive_parts (y m : ℕ) (rel : Name) (tgz : Bool) :
    archiveName y m rel tgz = "AOD1B_".toList ++ (pad4 y ++ ("-".toList ++ (pad2 m ++ ("_".toList ++ (rel ++
      (".".toList ++ (if tgz then "tgz".toList else "tar.gz".toList))))))) := by
  unfold archiveName
  cases tgz
  · have : ".tar.gz".toList = ".".toList ++ "tar.gz".toList := rfl
    simp only [Bool.false_eq_true, if_false, this, List.append_assoc]
  · have : ".tgz".toList = ".".toList ++ "tgz".toList := rfl
    simp only [if_true, this, List.append_assoc]

theorem first_year (years : Option (List ℕ)) (ha : Asked years) (y : ℕ) (hy : 1000 ≤ y ∧ y < 10000) (hw : Wanted years y) (r : Name) :
    First (yearRe years) (pad4 y ++ r) [] r := by
  cases years with
  | none =>
    have h4 : ∃ a b c d : Char, pad4 y = [a, b, c, d] ∧ a.isDigit = true ∧ b.isDigit = true ∧ c.isDigit = true ∧ d.isDigit = true := by
      have h := (pad4_isDigits y).2
      have hl : (pad4 y).length = 4 := by simp [pad4]
      match hp : pad4 y, hl, h with
      | [a, b, c, d], _, h => exact ⟨a, b, c, d, rfl, h a (by simp), h b (by simp), h c (by simp), h d (by simp)⟩
    obtain ⟨a, b, c, d, hp, h1, h2, h3, h4⟩ := h4
    rw [hp]
    exact first_cat (c := []) (first_chr _ a _ h1) (first_cat (c := []) (first_chr _ b _ h2) (first_cat (c := []) (first_chr _ c _ h3)
      (first_cat (c := []) (first_chr _ d _ h4) (first_cat_nil _))))
  | some ys =>
    obtain ⟨-, h4⟩ := ha ys rfl
    refine first_anyOf _ _ _ ?_ ?_
    · exact List.mem_map.2 ⟨y, hw ys rfl, zpad4_eq y hy.1 hy.2⟩
    · intro v hv
      obtain ⟨z, hz, rfl⟩ := List.mem_map.1 hv
      rw [zpad4_eq z (h4 z hz).1 (h4 z hz).2]
      simp [pad4]

/-- the expression matches the whole name of an archive of a wanted year -/
theorem first_arch (years : Option (List ℕ)) (ha : Asked years) (y m : ℕ) (hy : 1000 ≤ y ∧ y < 10000) (hw : Wanted years y) (rel : Name)
    (hr : IsDigits rel) (tgz : Bool) : ∃ c, First (archRe years) (archiveName y m rel tgz) ((1, pad4 y) :: (2, pad2 m) :: c) [] := by
  have hext : ∃ c, First (.grp 3 (.alt (lit "tar.gz".toList) (lit "tgz".toList))) (if tgz then "tgz".toList else "tar.gz".toList) c [] := by
    cases tgz
    · exact ⟨[(3, "tar.gz".toList)], by unfold First; decide⟩
    · exact ⟨[(3, "tgz".toList)], by unfold First; decide⟩
  obtain ⟨c, hc⟩ := hext
  refine ⟨c, ?_⟩
  rw [archive_parts]
  have e : ((1, pad4 y) :: (2, pad2 m) :: c : List (ℕ × List Char)) =
      ([] ++ ((1, pad4 y) :: [] ++ ([] ++ ((2, pad2 m) :: [] ++ ([] ++ ([] ++ ([] ++ (c ++ [])))))))) ++ [] := by simp
  rw [e]
  unfold archRe
  exact first_seq (first_cat (first_lit _ _) (first_cat (first_grp 1 (first_year years ha y hy hw _)) (first_cat (first_lit _ _) (first_cat
    (first_grp 2 (first_digits _ _ (pad2_isDigits m).1 (pad2_isDigits m).2 (under_no_digit _))) (first_cat (first_lit _ _)
    (first_cat (first_digits _ _ hr.1 hr.2 (dot_no_digit _)) (first_cat (first_lit _ _) (first_cat hc (first_cat_nil _))))))))) rfl

/-- C97: year and month as they are written in the name of the archive -/
theorem arch_date (years : Option (List ℕ)) (ha : Asked years) (y m : ℕ) (hy : 1000 ≤ y ∧ y < 10000) (hw : Wanted years y) (rel : Name)
    (hr : IsDigits rel) (tgz : Bool) : archDate years (archiveName y m rel tgz) = some (pad4 y, pad2 m) := by
  obtain ⟨c, hfirst⟩ := first_arch years ha y m hy hw rel hr tgz
  have hnil : runs (archRe years) [] = [] := by
    unfold archRe
    apply runs_seq_none
    exact runs_seq_none (runs_lit_none _ _ (by simp))
  have hf := findall_single (archRe years) _ _ (by rw [archive_parts]; simp) hfirst hnil
  unfold archDate
  rw [hf]
  rfl

theorem lang_year (years : Option (List ℕ)) (ha : Asked years) (u : Name) (h : Lang (yearRe years) u) :
    u.length = 4 ∧ ∀ ys, years = some ys → ∃ v ∈ ys, u = pad4 v := by
  cases years with
  | none =>
    simp only [yearRe, lang_cat_cons, lang_cat_nil] at h
    obtain ⟨v1, w1, rfl, ⟨a, rfl, -⟩, v2, w2, rfl, ⟨b, rfl, -⟩, v3, w3, rfl, ⟨c, rfl, -⟩, v4, w4, rfl, ⟨d, rfl, -⟩, rfl⟩ := h
    exact ⟨rfl, by simp⟩
  | some ys =>
    obtain ⟨hne, h4⟩ := ha ys rfl
    have h := (lang_anyOf _ (by simpa using hne) u).1 h
    obtain ⟨v, hv, rfl⟩ := List.mem_map.1 h
    rw [zpad4_eq v (h4 v hv).1 (h4 v hv).2]
    refine ⟨by simp [pad4], ?_⟩
    rintro ys' h'
    obtain rfl := Option.some.inj h'
    exact ⟨v, hv, rfl⟩

theorem noEnd_archRe (years : Option (List ℕ)) : NoEnd (cat [lit "AOD1B_".toList, .grp 1 (yearRe years), lit "-".toList, .grp 2 digits,
    lit "_".toList, digits, lit ".".toList, .grp 3 (.alt (lit "tar.gz".toList) (lit "tgz".toList))]) := by
  rw [noEnd_cat]
  intro e he
  simp only [List.mem_cons, List.not_mem_nil, or_false] at he
  rcases he with rfl | rfl | rfl | rfl | rfl | rfl | rfl | rfl
  · exact noEnd_lit _
  · cases years with
    | none => exact ⟨trivial, trivial, trivial, trivial, trivial⟩
    | some ys => exact noEnd_anyOf _
  · exact noEnd_lit _
  · exact noEnd_digits
  · exact noEnd_lit _
  · exact noEnd_digits
  · exact noEnd_lit _
  · exact ⟨noEnd_lit _, noEnd_lit _⟩

/-- C97: an archive is read exactly if its year is wanted -/
theorem arch_chosen (years : Option (List ℕ)) (ha : Asked years) (y m : ℕ) (hy : 1000 ≤ y ∧ y < 10000) (rel : Name)
    (hr : IsDigits rel) (tgz : Bool) : accepts (archRe years) (archiveName y m rel tgz) = true ↔ Wanted years y := by
  constructor
  · intro h ys hys
    unfold archRe at h
    rw [accepts_whole _ (noEnd_archRe years)] at h
    obtain ⟨u, nl, hs, -, hl⟩ := h
    simp only [lang_cat_cons, lang_lit] at hl
    obtain ⟨v1, u1, rfl, rfl, w, u2, rfl, hw, -⟩ := hl
    obtain ⟨hlen, hex⟩ := lang_year years ha w hw
    obtain ⟨v, hv, rfl⟩ := hex ys hys
    rw [archive_parts, List.append_assoc, List.append_assoc] at hs
    obtain ⟨e, -⟩ := List.append_inj (List.append_cancel_left hs) (by simp [pad4])
    have h4 := (ha ys hys).2 v hv
    rw [pad4_inj y v hy.2 h4.2 e]
    exact hv
  · intro hw
    obtain ⟨c, hfirst⟩ := first_arch years ha y m hy hw rel hr tgz
    rw [accepts_iff]
    obtain ⟨l, hl⟩ := (first_iff ..).1 hfirst
    exact ⟨_, [], by rw [hl]; exact List.mem_cons_self⟩

end Verif.Uplift
