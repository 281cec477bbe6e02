import Verif.Dealias.Program
import Verif.Geocenter.Props

/-!
# Series of geocenter and oblateness from AOD1B archives (C86)
-/
namespace Verif.Dealias
open Verif.Names Verif.Time Verif.SLR Verif.GIA Verif.SpatialIO Verif.Harmonics
open Verif.GeoRead (pad2 pad4)
open Verif.Geocenter (Geo toCartesian toCartesian_spec)

/-! ## Names -/

theorem dash_no_digit (x : Name) : ∀ c ∈ ("-".toList ++ x).head?, c.isDigit = false := by
  intro c hc; simp at hc; subst hc; decide

theorem under_no_digit (x : Name) : ∀ c ∈ ("_".toList ++ x).head?, c.isDigit = false := by
  intro c hc; simp at hc; subst hc; decide

theorem underX_no_digit (x : Name) : ∀ c ∈ ("_X_".toList ++ x).head?, c.isDigit = false := by
  intro c hc; simp at hc; subst hc; decide

theorem dot_no_digit (x : Name) : ∀ c ∈ (".".toList ++ x).head?, c.isDigit = false := by
  intro c hc; simp at hc; subst hc; decide

/-- C86: year and month of an archive -/
theorem tar_date (y m : ℕ) (hy : y < 10000) (hm : m < 100) (rel : Name) (hr : IsDigits rel) (tgz : Bool) :
    tarDate (archiveName y m rel tgz) = some ((y : ℤ), (m : ℤ)) := by
  have hname : archiveName y m rel tgz = "AOD1B_".toList ++ (pad4 y ++ ("-".toList ++ (pad2 m ++ ("_".toList ++ (rel ++
      (".".toList ++ (if tgz then "tgz".toList else "tar.gz".toList))))))) := by
    unfold archiveName
    cases tgz
    · have : ".tar.gz".toList = ".".toList ++ "tar.gz".toList := rfl
      simp only [Bool.false_eq_true, if_false, this, List.append_assoc]
    · have : ".tgz".toList = ".".toList ++ "tgz".toList := rfl
      simp only [if_true, this, List.append_assoc]
  have hext : ∃ c, First (.grp 3 (.alt (lit "tar.gz".toList) (lit "tgz".toList))) (if tgz then "tgz".toList else "tar.gz".toList) c [] := by
    cases tgz
    · exact ⟨[(3, "tar.gz".toList)], by unfold First; decide⟩
    · exact ⟨[(3, "tgz".toList)], by unfold First; decide⟩
  obtain ⟨c, hc⟩ := hext
  have hfirst : First monthRe (archiveName y m rel tgz) ((1, pad4 y) :: (2, pad2 m) :: c) [] := by
    rw [hname]
    have e : ((1, pad4 y) :: (2, pad2 m) :: c : List (ℕ × List Char)) =
        ([] ++ ((1, pad4 y) :: [] ++ ([] ++ ((2, pad2 m) :: [] ++ ([] ++ ([] ++ ([] ++ (c ++ [])))))))) ++ [] := by simp
    rw [e]
    unfold monthRe
    exact first_seq (first_cat (first_lit _ _) (first_cat (first_grp 1 (first_digits _ _ (pad4_isDigits y).1 (pad4_isDigits y).2
      (dash_no_digit _))) (first_cat (first_lit _ _) (first_cat (first_grp 2 (first_digits _ _ (pad2_isDigits m).1
      (pad2_isDigits m).2 (under_no_digit _))) (first_cat (first_lit _ _) (first_cat (first_digits _ _ hr.1 hr.2 (dot_no_digit _))
      (first_cat (first_lit _ _) (first_cat hc (first_cat_nil _))))))))) rfl
  have hnil : runs monthRe [] = [] := by
    unfold monthRe
    apply runs_seq_none
    exact runs_seq_none (runs_lit_none _ _ (by simp))
  have hf := findall_single monthRe _ _ (by rw [hname]; simp) hfirst hnil
  unfold tarDate
  rw [hf]
  have g1 : group ((1, pad4 y) :: (2, pad2 m) :: c) 1 = pad4 y := rfl
  have g2 : group ((1, pad4 y) :: (2, pad2 m) :: c) 2 = pad2 m := rfl
  simp only [List.getLast?_singleton, Option.bind_some, g1, g2, pyInt_isDigits _ (pad4_isDigits y),
    pyInt_isDigits _ (pad2_isDigits m), GeoRead.pad4_val y hy, GeoRead.pad2_val m hm]

/-- C86: day of a daily file -/
theorem member_day (y m d : ℕ) (hd : d < 100) (rel : Name) (hr : IsDigits rel) (gz : Bool) :
    memberDay (dailyName y m d rel gz) = some (d : ℤ) := by
  have hname : dailyName y m d rel gz = "AOD1B_".toList ++ (pad4 y ++ ("-".toList ++ (pad2 m ++ ("-".toList ++ (pad2 d ++
      ("_X_".toList ++ (rel ++ (".".toList ++ ("asc".toList ++ (if gz then ".gz".toList else [])))))))))) := by
    unfold dailyName
    have : ".asc".toList = ".".toList ++ "asc".toList := rfl
    rw [this]
    simp only [List.append_assoc]
  have hopt : ∃ c, First (opt (.grp 2 (.seq (.chr anyChar) (lit "gz".toList)))) (if gz then ".gz".toList else []) c [] := by
    cases gz
    · exact ⟨[], rfl⟩
    · exact ⟨[(2, ".gz".toList)], by unfold First; decide⟩
  obtain ⟨c, hc⟩ := hopt
  have hfirst : First dayRe (dailyName y m d rel gz) ((1, pad2 d) :: c) [] := by
    rw [hname]
    have e : ((1, pad2 d) :: c : List (ℕ × List Char)) =
        ([] ++ ([] ++ ([] ++ ([] ++ ([] ++ ((1, pad2 d) :: [] ++ ([] ++ ([] ++ ([] ++ ([] ++ (c ++ []))))))))))) ++ [] := by simp
    rw [e]
    unfold dayRe
    exact first_seq (first_cat (first_lit _ _) (first_cat (first_digits _ _ (pad4_isDigits y).1 (pad4_isDigits y).2
      (dash_no_digit _)) (first_cat (first_lit _ _) (first_cat (first_digits _ _ (pad2_isDigits m).1
      (pad2_isDigits m).2 (dash_no_digit _)) (first_cat (first_lit _ _) (first_cat (first_grp 1 (first_digits _ _
      (pad2_isDigits d).1 (pad2_isDigits d).2 (underX_no_digit _))) (first_cat (first_lit _ _) (first_cat (first_digits _ _ hr.1
      hr.2 (dot_no_digit _)) (first_cat (first_chr anyChar '.' _ (by decide)) (first_cat (first_lit _ _) (first_cat hc
      (first_cat_nil _)))))))))))) rfl
  have hnil : runs dayRe [] = [] := by
    unfold dayRe
    apply runs_seq_none
    exact runs_seq_none (runs_lit_none _ _ (by simp))
  have hf := findall_single dayRe _ _ (by rw [hname]; simp) hfirst hnil
  unfold memberDay
  rw [hf]
  have g1 : group ((1, pad2 d) :: c) 1 = pad2 d := rfl
  simp only [List.getLast?_singleton, Option.bind_some, g1, pyInt_isDigits _ (pad2_isDigits d), GeoRead.pad2_val d hd]

/-! ## Coefficients -/

theorem pick_foldl (rows : List Coef) (l m : ℕ) (f : Coef → ℚ) (x : ℚ) (h : ∀ r ∈ rows, ¬ (r.l = l ∧ r.m = m)) :
    rows.foldl (fun acc r => if r.l = l ∧ r.m = m then f r else acc) x = x := by
  induction rows with
  | nil => rfl
  | cons r rows ih =>
    rw [List.foldl_cons, if_neg (h r (by simp))]
    exact ih fun q hq => h q (by simp [hq])

theorem pick_row (L : ℕ) (P : List (ℕ × ℕ)) (hP : Layout L P) (f : Hour) (l m : ℕ) (hm : m ≤ l) (hl : l ≤ L) :
    pick (rowsOf P f) l m Coef.c = f.c l m ∧ pick (rowsOf P f) l m Coef.s = f.s l m := by
  obtain ⟨p, q, rfl⟩ := List.append_of_mem ((hP.2 l m).2 ⟨hm, hl⟩)
  have hnd := hP.1
  rw [List.nodup_append, List.nodup_cons] at hnd
  have hq : ∀ r ∈ rowsOf q f, ¬ (r.l = l ∧ r.m = m) := by
    intro r hr
    obtain ⟨x, hx, rfl⟩ := List.mem_map.1 hr
    rintro ⟨h1, h2⟩
    apply hnd.2.1.1
    have : x = (l, m) := Prod.ext h1 h2
    rw [← this]; exact hx
  have e : rowsOf (p ++ (l, m) :: q) f = rowsOf p f ++ ⟨l, m, f.c l m, f.s l m⟩ :: rowsOf q f := by
    simp [rowsOf]
  unfold pick
  rw [e]
  constructor
  · rw [List.foldl_append, List.foldl_cons, if_pos ⟨rfl, rfl⟩, pick_foldl _ _ _ _ _ hq]
  · rw [List.foldl_append, List.foldl_cons, if_pos ⟨rfl, rfl⟩, pick_foldl _ _ _ _ _ hq]

/-! ## Series -/

theorem series_ok {A : Type} (day : ℤ → ℤ → ℤ → List Block → List A) (prod : Name) (nt : ℕ) (P : List (ℕ × ℕ)) (y m : ℕ)
    (files : List (Day × Member))
    (hf : ∀ f ∈ files, FileOf prod P f.1 f.2 ∧ f.1.y = y ∧ f.1.m = m ∧ f.1.hours.length = nt) :
    seriesOf day prod nt P.length y m (files.map Prod.snd) =
      .ok (files.flatMap fun f => day f.1.y f.1.m f.1.d (f.1.hours.map fun g => (⟨g.h, rowsOf P g⟩ : Block))) := by
  induction files with
  | nil => rfl
  | cons f files ih =>
    obtain ⟨⟨⟨rel, gz, hr, hname⟩, h1, h2, h3, rest, ht⟩, hy, hm, hh⟩ := hf f (by simp)
    rw [List.map_cons, seriesOf, hname, member_day _ _ _ h3 rel hr gz]
    simp only
    have hb := blocks_read prod P.length rest _ _ ht
    rw [List.length_map, hh] at hb
    rw [hb, ih fun g hg => hf g (by simp [hg])]
    simp only [List.flatMap_cons, hy, hm]

/-- C86: the geocenter file of an archive has one line for each field of the product, in the order of the files and hours,
with date, hour and the coefficients of degree one; it is made anew exactly if it is missing, older than the archive, or
to be overwritten -/
theorem geocenter_lines (drel prod : Name) (nt L0 : ℕ) (hrel : releaseOf drel = some (nt, L0)) (P : List (ℕ × ℕ))
    (hP : Layout L0 P) (a : Arch) (ha : a.OK prod P nt) (clobber : Bool) (old : Option ℚ) :
    geocenterFile drel prod clobber old a.tar =
      if (∀ t, old = some t → t < a.tar.mtime) ∨ clobber = true then
        some (.ok (a.files.flatMap fun f => f.1.hours.map fun g =>
          (⟨f.1.y, f.1.m, f.1.d, g.h, g.c 1 1, g.s 1 1, g.c 1 0⟩ : GeoLine)))
      else none := by
  obtain ⟨y, m, rel, tgz, hname, hr, hy, hm, hmem, hfiles⟩ := ha
  have hL : 1 ≤ L0 := by
    unfold releaseOf at hrel
    split_ifs at hrel <;> simp at hrel <;> omega
  unfold geocenterFile seriesFile
  rw [hrel, hname, tar_date y m hy hm rel hr tgz]
  simp only
  have htest : ((match old with | none => true | some t => decide (t < a.tar.mtime)) || clobber) = true ↔
      (∀ t, old = some t → t < a.tar.mtime) ∨ clobber = true := by
    cases old <;> simp
  by_cases h : (∀ t, old = some t → t < a.tar.mtime) ∨ clobber = true
  · rw [if_pos h]
    refine (if_pos (htest.2 h)).trans ?_
    rw [← layout_length L0 P hP, hmem, series_ok geoDay prod nt P y m a.files hfiles]
    congr 2
    apply flatMap_congr'
    intro f _
    unfold geoDay
    rw [List.map_map]
    apply List.map_congr_left
    intro g _
    simp only [Function.comp_apply]
    rw [(pick_row L0 P hP g 1 1 (by omega) hL).1, (pick_row L0 P hP g 1 1 (by omega) hL).2,
      (pick_row L0 P hP g 1 0 (by omega) hL).1]
  · rw [if_neg h]
    exact if_neg (fun hc => h (htest.1 hc))

/-- C86: the coordinates in a line are those the class `geocenter` (C29) calculates without Love number -/
theorem geocenter_coordinates (o : Geo 1) (g : GeoLine)
    (h : o.coef.Has (fun _ => (g.c10 : ℝ)) (fun _ => (g.c11 : ℝ)) (fun _ => (g.s11 : ℝ))) :
    (toCartesian o 0).cart.Has (fun _ => (geocenterXYZ o.radius g).2.2) (fun _ => (geocenterXYZ o.radius g).1)
      (fun _ => (geocenterXYZ o.radius g).2.1) := by
  exact (toCartesian_spec o 0 _ _ _ h).1

/-- C86 (deviation): the oblateness file has the first four fields of each day only; for the releases with four fields a
day these are all, for release 6 the four of the afternoon and evening are missing -/
theorem oblateness_lines (drel prod : Name) (nt L0 : ℕ) (hrel : releaseOf drel = some (nt, L0)) (P : List (ℕ × ℕ))
    (hP : Layout L0 P) (a : Arch) (ha : a.OK prod P nt) (clobber : Bool) (old : Option ℚ) :
    oblatenessFile drel prod clobber old a.tar =
      if (∀ t, old = some t → t < a.tar.mtime) ∨ clobber = true then
        some (.ok (a.files.flatMap fun f => (f.1.hours.take 4).map fun g =>
          (⟨f.1.y, f.1.m, f.1.d, g.h, g.c 2 0⟩ : OblLine)))
      else none := by
  obtain ⟨y, m, rel, tgz, hname, hr, hy, hm, hmem, hfiles⟩ := ha
  have hL : 2 ≤ L0 := by
    unfold releaseOf at hrel
    split_ifs at hrel <;> simp at hrel <;> omega
  unfold oblatenessFile seriesFile
  rw [hrel, hname, tar_date y m hy hm rel hr tgz]
  simp only
  have htest : ((match old with | none => true | some t => decide (t < a.tar.mtime)) || clobber) = true ↔
      (∀ t, old = some t → t < a.tar.mtime) ∨ clobber = true := by
    cases old <;> simp
  by_cases h : (∀ t, old = some t → t < a.tar.mtime) ∨ clobber = true
  · rw [if_pos h]
    refine (if_pos (htest.2 h)).trans ?_
    rw [← layout_length L0 P hP, hmem, series_ok oblDay prod nt P y m a.files hfiles]
    congr 2
    apply flatMap_congr'
    intro f _
    unfold oblDay
    have e : ∀ xs : List Hour, ((List.range 4).filterMap fun h : ℕ => ((xs.map fun g => (⟨g.h, rowsOf P g⟩ : Block))[h]?).map
        fun b => (⟨(f.1.y : ℤ), (f.1.m : ℤ), (f.1.d : ℤ), b.hour, pick b.rows 2 0 Coef.c⟩ : OblLine)) =
        (xs.take 4).map fun g => (⟨f.1.y, f.1.m, f.1.d, g.h, g.c 2 0⟩ : OblLine) := by
      intro xs
      have hp : ∀ g : Hour, pick (rowsOf P g) 2 0 Coef.c = g.c 2 0 := fun g => (pick_row L0 P hP g 2 0 (by omega) hL).1
      have hr4 : List.range 4 = [0, 1, 2, 3] := rfl
      rw [hr4]
      match xs with
      | [] => rfl
      | [a] => simp [hp]
      | [a, b] => simp [hp]
      | [a, b, c] => simp [hp]
      | a :: b :: c :: d :: r => simp [hp]
    exact e _
  · rw [if_neg h]
    exact if_neg (fun hc => h (htest.1 hc))

end Verif.Dealias
