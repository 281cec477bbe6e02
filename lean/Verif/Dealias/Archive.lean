import Verif.Dealias.Days
import Verif.Names.Search
import Verif.GeoRead.Text

/-!
# Names of the files in the AOD1B archives (C86)
-/
namespace Verif.Dealias
open Verif.Names Verif.Time Verif.Time.Spec Verif.SLR Verif.GIA Verif.SpatialIO
open Verif.GeoRead (pad2 pad4)

/-! ## Specification -/

/-- name of an archive: `AOD1B_2002-04_06.tar.gz` or `AOD1B_2002-04_06.tgz` -/
def archiveName (y m : ℕ) (rel : Name) (tgz : Bool) : Name :=
  "AOD1B_".toList ++ pad4 y ++ "-".toList ++ pad2 m ++ "_".toList ++ rel ++ (if tgz then ".tgz".toList else ".tar.gz".toList)

/-- name of a daily file: `AOD1B_2002-04-01_X_06.asc` or `AOD1B_2002-04-01_X_06.asc.gz` -/
def dailyName (y m d : ℕ) (rel : Name) (gz : Bool) : Name :=
  "AOD1B_".toList ++ pad4 y ++ "-".toList ++ pad2 m ++ "-".toList ++ pad2 d ++ "_X_".toList ++ rel ++ ".asc".toList ++
    (if gz then ".gz".toList else [])

/-- the text is a number -/
def IsDigits (u : Name) : Prop := u ≠ [] ∧ ∀ c ∈ u, c.isDigit = true

/-! ## Numbers as text -/

theorem zpad2_eq (n : ℕ) (h : n < 100) : zpad 2 n = pad2 n := by
  have : ∀ n < 100, zpad 2 n = pad2 n := by decide +kernel
  exact this n h

theorem zpad4_eq (n : ℕ) (h1 : 1000 ≤ n) (h2 : n < 10000) : zpad 0 n = pad4 n := by
  obtain ⟨f, rfl⟩ : ∃ f, n = f + 4 := ⟨n - 4, by omega⟩
  have hc : digitCount (f + 4) (f + 4) = 4 := by
    rw [show digitCount (f + 4) (f + 4) = digitCount (f + 3 + 1) (f + 4) from rfl, digitCount, if_neg (by omega),
      show digitCount (f + 3) ((f + 4) / 10) = digitCount (f + 2 + 1) ((f + 4) / 10) from rfl, digitCount, if_neg (by omega),
      show digitCount (f + 2) ((f + 4) / 10 / 10) = digitCount (f + 1 + 1) ((f + 4) / 10 / 10) from rfl, digitCount,
      if_neg (by omega), digitCount, if_pos (by omega)]
  unfold zpad natDigits
  rw [hc]
  simp only [lastDigits, List.nil_append, List.cons_append, List.length_cons, List.length_nil]
  simp only [pad4, Nat.zero_sub, List.replicate_zero, List.nil_append, List.map_cons, List.map_nil, Nat.div_div_eq_div_mul]

theorem pad2_isDigits (n : ℕ) : IsDigits (pad2 n) := ⟨by simp [pad2], by
  intro c hc; simp only [pad2, List.mem_cons, List.not_mem_nil, or_false] at hc
  rcases hc with rfl | rfl <;> exact dchar_isDigit _⟩

theorem pad4_isDigits (n : ℕ) : IsDigits (pad4 n) := ⟨by simp [pad4], by
  intro c hc; simp only [pad4, List.mem_cons, List.not_mem_nil, or_false] at hc
  rcases hc with rfl | rfl | rfl | rfl <;> exact dchar_isDigit _⟩

theorem isDigits_noNewline (u : Name) (h : IsDigits u) : '\n' ∉ u := by
  intro hm; have := h.2 _ hm; revert this; decide

theorem pyInt_isDigits (u : Name) (h : IsDigits u) : pyInt u = some (digitsVal u : ℤ) := by
  obtain ⟨h1, h2⟩ := h
  cases u with
  | nil => exact absurd rfl h1
  | cons c t =>
    have hc := h2 c (by simp)
    have hs : ¬ (c = '+' ∨ c = '-') := by
      rintro (rfl | rfl) <;> revert hc <;> decide
    have ho : optSign (c :: t) = ([], c :: t) := by simp [optSign, hs]
    unfold pyInt
    simp only [ho]
    rw [if_pos ⟨by simp, by rw [List.all_eq_true]; exact h2⟩]
    simp [signVal]

theorem ymdText_eq (y m d : ℕ) (h1 : 1000 ≤ y) (h2 : y < 10000) (hm : m < 100) (hd : d < 100) :
    ymdText y m d = pad4 y ++ "-".toList ++ pad2 m ++ "-".toList ++ pad2 d := by
  unfold ymdText
  simp only [Int.toNat_natCast]
  rw [zpad4_eq y h1 h2, zpad2_eq m hm, zpad2_eq d hd]
  simp

theorem ymText_eq (y m : ℕ) (h1 : 1000 ≤ y) (h2 : y < 10000) (hm : m < 100) :
    ymText y m = pad4 y ++ "-".toList ++ pad2 m := by
  unfold ymText
  simp only [Int.toNat_natCast]
  rw [zpad4_eq y h1 h2, zpad2_eq m hm]
  simp

theorem pad4_inj (a b : ℕ) (ha : a < 10000) (hb : b < 10000) (h : pad4 a = pad4 b) : a = b := by
  rw [← GeoRead.pad4_val a ha, h, GeoRead.pad4_val b hb]

theorem pad2_inj (a b : ℕ) (ha : a < 100) (hb : b < 100) (h : pad2 a = pad2 b) : a = b := by
  rw [← GeoRead.pad2_val a ha, h, GeoRead.pad2_val b hb]

/-! ## Expressions -/

theorem lang_anyOf (ws : List Name) (hne : ws ≠ []) (u : Name) : Lang (anyOf ws) u ↔ u ∈ ws := by
  unfold anyOf
  rw [if_neg hne, lang_oneOf]
  constructor
  · rintro ⟨e, he, hu⟩
    obtain ⟨w, hw, rfl⟩ := List.mem_map.1 he
    rw [lang_lit] at hu
    rw [hu]; exact hw
  · intro h
    exact ⟨lit u, List.mem_map.2 ⟨u, h, rfl⟩, (lang_lit u u).2 rfl⟩

theorem noEnd_anyOf (ws : List Name) : NoEnd (anyOf ws) := by
  unfold anyOf
  split_ifs
  · trivial
  · apply noEnd_oneOf
    intro e he
    obtain ⟨w, -, rfl⟩ := List.mem_map.1 he
    exact noEnd_lit w

/-- of literal alternatives of the same length only the one that is there matches -/
theorem first_anyOf (ws : List Name) (w r : Name) (hw : w ∈ ws) (hlen : ∀ v ∈ ws, v.length = w.length) :
    First (anyOf ws) (w ++ r) [] r := by
  unfold anyOf
  rw [if_neg (List.ne_nil_of_mem hw)]
  induction ws with
  | nil => simp at hw
  | cons v vs ih =>
    by_cases hv : v = w
    · subst hv
      cases vs with
      | nil => exact first_lit v r
      | cons x xs =>
        have : First (.alt (lit v) (oneOf ((x :: xs).map lit))) (v ++ r) [] r := by
          unfold First
          simp only [runs, runs_lit]
          rfl
        exact this
    · have hv' : w ∈ vs := by
        rcases List.mem_cons.1 hw with h | h
        · exact absurd h.symm hv
        · exact h
      have hno : runs (lit v) (w ++ r) = [] := by
        apply runs_lit_none
        rintro ⟨t, ht⟩
        exact hv (List.append_inj ht (hlen v (by simp))).1
      have ih' := ih hv' fun x hx => hlen x (by simp [hx])
      cases vs with
      | nil => simp at hv'
      | cons x xs =>
        have : First (.alt (lit v) (oneOf ((x :: xs).map lit))) (w ++ r) [] r := by
          unfold First at ih' ⊢
          simp only [runs, hno, List.nil_append]
          exact ih'
        exact this

theorem noNewline_any (c : Char) (h : c ≠ '\n') : anyChar c = true := by simpa [anyChar] using h

/-- which names the expression for daily files accepts -/
theorem accepts_member (ws : List Name) (hne : ws ≠ []) (name : Name) (hn : '\n' ∉ name) :
    accepts (memberRe ws) name = true ↔ ∃ w ∈ ws, ∃ rel c sfx, IsDigits rel ∧
      (sfx = [] ∨ ∃ b, sfx = b :: "gz".toList) ∧ name = "AOD1B_".toList ++ w ++ "_X_".toList ++ rel ++ c :: "asc".toList ++ sfx := by
  have hend : NoEnd (cat [lit "AOD1B_".toList, .grp 1 (anyOf ws), lit "_X_".toList, digits, .chr anyChar, lit "asc".toList,
      opt (.grp 2 (.seq (.chr anyChar) (lit "gz".toList)))]) := by
    rw [noEnd_cat]
    intro e he
    simp only [List.mem_cons, List.not_mem_nil, or_false] at he
    rcases he with rfl | rfl | rfl | rfl | rfl | rfl | rfl
    · exact noEnd_lit _
    · exact noEnd_anyOf ws
    · exact noEnd_lit _
    · exact noEnd_digits
    · trivial
    · exact noEnd_lit _
    · exact ⟨⟨trivial, noEnd_lit _⟩, trivial⟩
  unfold memberRe
  rw [accepts_whole _ hend]
  simp only [lang_cat_cons, lang_cat_nil, lang_lit, lang_opt, lang_digits]
  have hl : ∀ u, Lang (.grp 1 (anyOf ws)) u ↔ u ∈ ws := fun u => lang_anyOf ws hne u
  simp only [hl]
  constructor
  · rintro ⟨u, nl, hs, hnl, v1, u1, rfl, rfl, w, u2, rfl, hw, v3, u3, rfl, rfl, rel, u4, rfl, hrel, v5, u5, rfl, ⟨c, rfl, hc⟩,
      v6, u6, rfl, rfl, v7, u7, rfl, h7, rfl⟩
    have hnl' : nl = [] := by
      rcases hnl with h | h
      · exact h
      · rw [hs, h] at hn; simp at hn
    subst hnl'
    refine ⟨w, hw, rel, c, v7, hrel, ?_, by rw [hs]; simp⟩
    rcases h7 with ⟨p, q, rfl, ⟨b, rfl, -⟩, hq⟩ | h7
    · rw [lang_lit] at hq
      exact Or.inr ⟨b, by rw [hq]; rfl⟩
    · exact Or.inl h7
  · rintro ⟨w, hw, rel, c, sfx, hrel, hsfx, hname⟩
    have hc : c ≠ '\n' := by
      rintro rfl; apply hn; rw [hname]; simp
    refine ⟨name, [], by simp, Or.inl rfl, _, _, ?_, rfl, w, _, rfl, hw, _, _, rfl, rfl, rel, _, rfl, hrel, _, _, rfl,
      ⟨c, rfl, noNewline_any c hc⟩, _, _, rfl, rfl, sfx, [], rfl, ?_, rfl⟩
    · rw [hname]; simp
    · rcases hsfx with h | ⟨b, h⟩
      · exact Or.inr h
      · left
        have hb : b ≠ '\n' := by
          rintro rfl; apply hn; rw [hname, h]; simp
        exact ⟨[b], "gz".toList, by rw [h]; rfl, ⟨b, rfl, noNewline_any b hb⟩, (lang_lit _ _).2 rfl⟩

/-- which names the expression for archives accepts -/
theorem accepts_tar (ws : List Name) (hne : ws ≠ []) (name : Name) (hn : '\n' ∉ name) :
    accepts (tarRe ws) name = true ↔ ∃ w ∈ ws, ∃ rel c sfx, IsDigits rel ∧
      ((∃ b, sfx = "tar".toList ++ b :: "gz".toList) ∨ sfx = "tgz".toList) ∧
      name = "AOD1B_".toList ++ w ++ "_".toList ++ rel ++ c :: sfx := by
  have hend : NoEnd (cat [lit "AOD1B_".toList, .grp 1 (anyOf ws), lit "_".toList, digits, .chr anyChar,
      .grp 2 (.alt (cat [lit "tar".toList, .chr anyChar, lit "gz".toList]) (lit "tgz".toList))]) := by
    rw [noEnd_cat]
    intro e he
    simp only [List.mem_cons, List.not_mem_nil, or_false] at he
    rcases he with rfl | rfl | rfl | rfl | rfl | rfl
    · exact noEnd_lit _
    · exact noEnd_anyOf ws
    · exact noEnd_lit _
    · exact noEnd_digits
    · trivial
    · refine ⟨?_, noEnd_lit _⟩
      rw [noEnd_cat]
      intro e he
      simp only [List.mem_cons, List.not_mem_nil, or_false] at he
      rcases he with rfl | rfl | rfl
      · exact noEnd_lit _
      · trivial
      · exact noEnd_lit _
  unfold tarRe
  rw [accepts_whole _ hend]
  simp only [lang_cat_cons, lang_cat_nil, lang_lit, lang_digits]
  have hl : ∀ u, Lang (.grp 1 (anyOf ws)) u ↔ u ∈ ws := fun u => lang_anyOf ws hne u
  have hg : ∀ u, Lang (.grp 2 (.alt (cat [lit "tar".toList, .chr anyChar, lit "gz".toList]) (lit "tgz".toList))) u ↔
      (∃ b, anyChar b = true ∧ u = "tar".toList ++ b :: "gz".toList) ∨ u = "tgz".toList := by
    intro u
    simp only [Lang, lang_cat_cons, lang_cat_nil, lang_lit]
    constructor
    · rintro (⟨v, w, rfl, rfl, x, y, rfl, ⟨b, rfl, hb⟩, p, q, rfl, rfl, rfl⟩ | h)
      · exact Or.inl ⟨b, hb, by simp⟩
      · exact Or.inr h
    · rintro (⟨b, hb, rfl⟩ | h)
      · exact Or.inl ⟨_, _, rfl, rfl, [b], _, rfl, ⟨b, rfl, hb⟩, _, [], (List.append_nil _).symm, rfl, rfl⟩
      · exact Or.inr h
  simp only [hl, hg]
  constructor
  · rintro ⟨u, nl, hs, hnl, v1, u1, rfl, rfl, w, u2, rfl, hw, v3, u3, rfl, rfl, rel, u4, rfl, hrel, v5, u5, rfl, ⟨c, rfl, hc⟩,
      v6, u6, rfl, h6, rfl⟩
    have hnl' : nl = [] := by
      rcases hnl with h | h
      · exact h
      · rw [hs, h] at hn; simp at hn
    subst hnl'
    refine ⟨w, hw, rel, c, v6, hrel, ?_, by rw [hs]; simp⟩
    rcases h6 with ⟨b, -, h⟩ | h
    · exact Or.inl ⟨b, h⟩
    · exact Or.inr h
  · rintro ⟨w, hw, rel, c, sfx, hrel, hsfx, hname⟩
    have hc : c ≠ '\n' := by
      rintro rfl; apply hn; rw [hname]; simp
    refine ⟨name, [], by simp, Or.inl rfl, _, _, ?_, rfl, w, _, rfl, hw, _, _, rfl, rfl, rel, _, rfl, hrel, _, _, rfl,
      ⟨c, rfl, noNewline_any c hc⟩, sfx, [], rfl, ?_, rfl⟩
    · rw [hname]; simp
    · rcases hsfx with ⟨b, h⟩ | h
      · left
        have hb : b ≠ '\n' := by
          rintro rfl; apply hn; rw [hname, h]; simp
        exact ⟨b, noNewline_any b hb, h⟩
      · exact Or.inr h

/-! ## The files of the days -/

/-- the years have four digits -/
def FourDigits (days : List ℚ) : Prop := ∀ jd ∈ days, 1000 ≤ (dayOf jd).1 ∧ (dayOf jd).1 < 10000

/-- texts of the days -/
def dayTexts (days : List ℚ) : List Name :=
  (days.map fun jd => ymdText (convertJulian jd).year (convertJulian jd).month (convertJulian jd).day).dedup

/-- texts of the months -/
def monthTexts (days : List ℚ) : List Name :=
  (days.map fun jd => ymText (convertJulian jd).year (convertJulian jd).month).dedup

theorem day_parts (days : List ℚ) (h4 : FourDigits days) (jd : ℚ) (hj : jd ∈ days) :
    ∃ y m d : ℕ, dayOf jd = ((y : ℤ), (m : ℤ), (d : ℤ)) ∧ 1000 ≤ y ∧ y < 10000 ∧ m < 100 ∧ d < 100 := by
  obtain ⟨h1, h2⟩ := h4 jd hj
  obtain ⟨a, b, c, d, -⟩ := convertJulian_ranges jd
  unfold dayOf at h1 h2 ⊢
  simp only at h1 h2 a b c d
  exact ⟨(convertJulian jd).year.toNat, (convertJulian jd).month.toNat, (convertJulian jd).day.toNat, by
    simp only [Prod.mk.injEq]; omega, by omega, by omega, by omega, by omega⟩

theorem mem_dayTexts (days : List ℚ) (h4 : FourDigits days) (w : Name) :
    w ∈ dayTexts days ↔ ∃ y m d : ℕ, (((y : ℤ), (m : ℤ), (d : ℤ)) : ℤ × ℤ × ℤ) ∈ days.map dayOf ∧ 1000 ≤ y ∧ y < 10000 ∧
      m < 100 ∧ d < 100 ∧ w = pad4 y ++ "-".toList ++ pad2 m ++ "-".toList ++ pad2 d := by
  unfold dayTexts
  rw [List.mem_dedup, List.mem_map]
  constructor
  · rintro ⟨jd, hj, rfl⟩
    obtain ⟨y, m, d, he, h1, h2, h3, h5⟩ := day_parts days h4 jd hj
    refine ⟨y, m, d, List.mem_map.2 ⟨jd, hj, he⟩, h1, h2, h3, h5, ?_⟩
    unfold dayOf at he
    simp only [Prod.mk.injEq] at he
    rw [he.1, he.2.1, he.2.2, ymdText_eq y m d h1 h2 h3 h5]
  · rintro ⟨y, m, d, hm, h1, h2, h3, h5, rfl⟩
    obtain ⟨jd, hj, he⟩ := List.mem_map.1 hm
    unfold dayOf at he
    simp only [Prod.mk.injEq] at he
    exact ⟨jd, hj, by rw [he.1, he.2.1, he.2.2, ymdText_eq y m d h1 h2 h3 h5]⟩

theorem mem_monthTexts (days : List ℚ) (h4 : FourDigits days) (w : Name) :
    w ∈ monthTexts days ↔ ∃ y m : ℕ, (∃ d, (((y : ℤ), (m : ℤ), d) : ℤ × ℤ × ℤ) ∈ days.map dayOf) ∧ 1000 ≤ y ∧ y < 10000 ∧
      m < 100 ∧ w = pad4 y ++ "-".toList ++ pad2 m := by
  unfold monthTexts
  rw [List.mem_dedup, List.mem_map]
  constructor
  · rintro ⟨jd, hj, rfl⟩
    obtain ⟨y, m, d, he, h1, h2, h3, h5⟩ := day_parts days h4 jd hj
    refine ⟨y, m, ⟨d, List.mem_map.2 ⟨jd, hj, he⟩⟩, h1, h2, h3, ?_⟩
    unfold dayOf at he
    simp only [Prod.mk.injEq] at he
    rw [he.1, he.2.1, ymText_eq y m h1 h2 h3]
  · rintro ⟨y, m, ⟨d, hm⟩, h1, h2, h3, rfl⟩
    obtain ⟨jd, hj, he⟩ := List.mem_map.1 hm
    unfold dayOf at he
    simp only [Prod.mk.injEq] at he
    exact ⟨jd, hj, by rw [he.1, he.2.1, ymText_eq y m h1 h2 h3]⟩

theorem length_ymd (y m d : ℕ) : (pad4 y ++ "-".toList ++ pad2 m ++ "-".toList ++ pad2 d).length = 10 := by
  simp [pad4, pad2]

theorem ymd_inj (y m d y' m' d' : ℕ) (hy : y < 10000) (hy' : y' < 10000) (hm : m < 100) (hm' : m' < 100) (hd : d < 100)
    (hd' : d' < 100) (h : pad4 y ++ "-".toList ++ pad2 m ++ "-".toList ++ pad2 d =
      pad4 y' ++ "-".toList ++ pad2 m' ++ "-".toList ++ pad2 d') : y = y' ∧ m = m' ∧ d = d' := by
  obtain ⟨h1, e3⟩ := List.append_inj h (by simp [pad4, pad2])
  obtain ⟨h2, -⟩ := List.append_inj h1 (by simp [pad4, pad2])
  obtain ⟨h3, e2⟩ := List.append_inj h2 (by simp [pad4])
  obtain ⟨e1, -⟩ := List.append_inj h3 (by simp [pad4])
  exact ⟨pad4_inj y y' hy hy' e1, pad2_inj m m' hm hm' e2, pad2_inj d d' hd hd' e3⟩

theorem not_newline_daily (y m d : ℕ) (rel : Name) (hr : IsDigits rel) (gz : Bool) : '\n' ∉ dailyName y m d rel gz := by
  have a := isDigits_noNewline _ (pad4_isDigits y)
  have b := isDigits_noNewline _ (pad2_isDigits m)
  have c := isDigits_noNewline _ (pad2_isDigits d)
  have e := isDigits_noNewline _ hr
  unfold dailyName
  cases gz <;> simp [a, b, c, e]

theorem not_newline_archive (y m : ℕ) (rel : Name) (hr : IsDigits rel) (tgz : Bool) : '\n' ∉ archiveName y m rel tgz := by
  have a := isDigits_noNewline _ (pad4_isDigits y)
  have b := isDigits_noNewline _ (pad2_isDigits m)
  have e := isDigits_noNewline _ hr
  unfold archiveName
  cases tgz <;> simp [a, b, e]

/-- C86: a daily file is used exactly if its date is one of the days of the month -/
theorem daily_found (days : List ℚ) (hne : days ≠ []) (h4 : FourDigits days) (y m d : ℕ) (hy : y < 10000) (hm : m < 100)
    (hd : d < 100) (rel : Name) (hr : IsDigits rel) (gz : Bool) :
    accepts (memberRe (dayTexts days)) (dailyName y m d rel gz) = true ↔
      (((y : ℤ), (m : ℤ), (d : ℤ)) : ℤ × ℤ × ℤ) ∈ days.map dayOf := by
  have hne' : dayTexts days ≠ [] := by
    unfold dayTexts
    intro h
    rw [List.dedup_eq_nil, List.map_eq_nil_iff] at h
    exact hne h
  rw [accepts_member _ hne' _ (not_newline_daily y m d rel hr gz)]
  constructor
  · rintro ⟨w, hw, rel', c, sfx, -, -, h⟩
    obtain ⟨y', m', d', hmem, h1, h2, h3, h5, rfl⟩ := (mem_dayTexts days h4 w).1 hw
    unfold dailyName at h
    simp only [List.append_assoc] at h
    have h' := List.append_cancel_left h
    rw [← List.append_assoc, ← List.append_assoc, ← List.append_assoc, ← List.append_assoc] at h'
    have h'' : (pad4 y ++ "-".toList ++ pad2 m ++ "-".toList ++ pad2 d) ++ ("_X_".toList ++ (rel ++ (".asc".toList ++
        if gz = true then ".gz".toList else []))) = (pad4 y' ++ "-".toList ++ pad2 m' ++ "-".toList ++ pad2 d') ++
        ("_X_".toList ++ (rel' ++ (c :: ("asc".toList ++ sfx)))) := by
      simpa [List.append_assoc] using h'
    obtain ⟨e, -⟩ := List.append_inj h'' (by rw [length_ymd, length_ymd])
    obtain ⟨rfl, rfl, rfl⟩ := ymd_inj y m d y' m' d' hy h2 hm h3 hd h5 e
    exact hmem
  · intro hmem
    have h1 : 1000 ≤ y := by
      obtain ⟨jd, hj, he⟩ := List.mem_map.1 hmem
      have := (h4 jd hj).1
      rw [he] at this
      simp only at this
      omega
    refine ⟨_, (mem_dayTexts days h4 _).2 ⟨y, m, d, hmem, h1, hy, hm, hd, rfl⟩, rel, '.',
      if gz then ".gz".toList else [], hr, ?_, ?_⟩
    · cases gz
      · left; rfl
      · right; exact ⟨'.', rfl⟩
    · unfold dailyName
      have : ".asc".toList = '.' :: "asc".toList := rfl
      rw [this]
      simp only [List.append_assoc]

/-- C86: an archive is opened exactly if one of the days is in its month -/
theorem archive_found (days : List ℚ) (hne : days ≠ []) (h4 : FourDigits days) (y m : ℕ) (hy : y < 10000) (hm : m < 100)
    (rel : Name) (hr : IsDigits rel) (tgz : Bool) :
    accepts (tarRe (monthTexts days)) (archiveName y m rel tgz) = true ↔
      ∃ d, (((y : ℤ), (m : ℤ), d) : ℤ × ℤ × ℤ) ∈ days.map dayOf := by
  have hne' : monthTexts days ≠ [] := by
    unfold monthTexts
    intro h
    rw [List.dedup_eq_nil, List.map_eq_nil_iff] at h
    exact hne h
  rw [accepts_tar _ hne' _ (not_newline_archive y m rel hr tgz)]
  constructor
  · rintro ⟨w, hw, rel', c, sfx, -, -, h⟩
    obtain ⟨y', m', hmem, h1, h2, h3, rfl⟩ := (mem_monthTexts days h4 w).1 hw
    unfold archiveName at h
    have h'' : "AOD1B_".toList ++ ((pad4 y ++ "-".toList ++ pad2 m) ++ ("_".toList ++ (rel ++
        if tgz = true then ".tgz".toList else ".tar.gz".toList))) = "AOD1B_".toList ++
        ((pad4 y' ++ "-".toList ++ pad2 m') ++ ("_".toList ++ (rel' ++ (c :: sfx)))) := by
      simpa only [List.append_assoc] using h
    obtain ⟨e, -⟩ := List.append_inj (List.append_cancel_left h'') (by simp [pad4, pad2])
    obtain ⟨e1, e2⟩ := List.append_inj e (by simp [pad4])
    obtain ⟨e3, -⟩ := List.append_inj e1 (by simp [pad4])
    obtain rfl := pad4_inj y y' hy h2 e3
    obtain rfl := pad2_inj m m' hm h3 e2
    exact hmem
  · intro hmem
    have h1 : 1000 ≤ y := by
      obtain ⟨d, hmem⟩ := hmem
      obtain ⟨jd, hj, he⟩ := List.mem_map.1 hmem
      have := (h4 jd hj).1
      rw [he] at this
      simp only at this
      omega
    refine ⟨_, (mem_monthTexts days h4 _).2 ⟨y, m, hmem, h1, hy, hm, rfl⟩, rel, '.',
      if tgz then "tgz".toList else "tar.gz".toList, hr, ?_, ?_⟩
    · cases tgz
      · left; exact ⟨'.', rfl⟩
      · right; rfl
    · unfold archiveName
      cases tgz <;> simp only [List.append_assoc] <;> rfl

/-- the files used are those of the accepted archives -/
theorem mem_findMembers (days : List ℚ) (tars : List Tar) (mem : Member) :
    mem ∈ findMembers days tars ↔ ∃ t ∈ tars, accepts (tarRe (monthTexts days)) t.name = true ∧ mem ∈ t.members ∧
      accepts (memberRe (dayTexts days)) mem.name = true := by
  unfold findMembers
  simp only [List.mem_flatMap, List.mem_filter, List.mem_insertionSort]
  constructor
  · rintro ⟨t, ⟨h1, h2⟩, h3, h4⟩; exact ⟨t, h1, h2, h3, h4⟩
  · rintro ⟨t, h1, h2, h3, h4⟩; exact ⟨t, ⟨h1, h2⟩, h3, h4⟩

/-! ## The date of a daily file -/

/-- the numbers in a text beginning with one -/
theorem findallN_digits (n : ℕ) (u r : Name) (hu : IsDigits u) (hr : ∀ c ∈ r.head?, c.isDigit = false) :
    findallN (n + 1) (.grp 1 digits) (u ++ r) = [(1, u)] :: findallN n (.grp 1 digits) r := by
  have h := first_grp 1 (first_digits u r hu.1 hu.2 hr)
  obtain ⟨l, hl⟩ := (first_iff ..).1 h
  rw [findallN, hl]
  simp only
  rw [if_pos (by
    have := List.length_pos_of_ne_nil hu.1
    rw [List.length_append]; omega)]

theorem findallN_skip (n : ℕ) (c : Char) (r : Name) (hc : c.isDigit = false) :
    findallN (n + 1) (.grp 1 digits) (c :: r) = findallN n (.grp 1 digits) r := by
  rw [findallN]
  have : runs (.grp 1 digits) (c :: r) = [] := by simp [runs, digits, Names.digit, hc]
  rw [this]
  simp

theorem findallN_nil (n : ℕ) : findallN n (.grp 1 digits) [] = [] := by
  cases n with
  | zero => rfl
  | succ n => simp [findallN, runs, digits, Names.digit]

theorem first_member (ws : List Name) (w : Name) (hw : w ∈ ws) (hlen : ∀ v ∈ ws, v.length = w.length) (rel : Name)
    (hr : IsDigits rel) (gz : Bool) :
    ∃ c, First (memberRe ws) ("AOD1B_".toList ++ (w ++ ("_X_".toList ++ (rel ++ ('.' :: ("asc".toList ++
      (if gz then ".gz".toList else []))))))) ((1, w) :: c) [] := by
  have hopt : ∃ c, First (opt (.grp 2 (.seq (.chr anyChar) (lit "gz".toList)))) (if gz then ".gz".toList else []) c [] := by
    cases gz
    · exact ⟨[], rfl⟩
    · exact ⟨[(2, ".gz".toList)], by unfold First; decide⟩
  obtain ⟨c, hc⟩ := hopt
  refine ⟨c, ?_⟩
  have e : ((1, w) :: c : List (ℕ × List Char)) = ([] ++ ((1, w) :: [] ++ ([] ++ ([] ++ ([] ++ ([] ++ (c ++ []))))))) ++ [] := by simp
  rw [e]
  unfold memberRe
  refine first_seq (first_cat (first_lit _ _) (first_cat (first_grp 1 (first_anyOf ws w _ hw hlen)) (first_cat (first_lit _ _)
    (first_cat (first_digits rel _ hr.1 hr.2 ?_) (first_cat (first_chr anyChar '.' _ (by decide)) (first_cat (first_lit _ _)
    (first_cat hc (first_cat_nil _)))))))) rfl
  intro x hx
  simp at hx
  subst hx; decide

/-- a first match that uses up the text is the only one -/
theorem findall_single (e : Re) (s : Name) (c) (hs : s ≠ []) (h : First e s c []) (hn : runs e [] = []) : findall e s = [c] := by
  obtain ⟨l, hl⟩ := (first_iff ..).1 h
  unfold findall
  rw [findallN, hl]
  simp only
  rw [if_pos (by simpa using List.length_pos_of_ne_nil hs)]
  obtain ⟨k, hk⟩ : ∃ k, s.length = k + 1 := ⟨s.length - 1, by have := List.length_pos_of_ne_nil hs; omega⟩
  rw [hk, findallN, hn]
  simp

/-- C86: the date of a daily file is read from its name -/
theorem daily_date (days : List ℚ) (h4 : FourDigits days) (y m d : ℕ) (hy : y < 10000) (hm : m < 100) (hd : d < 100)
    (rel : Name) (hr : IsDigits rel) (gz : Bool) (hmem : (((y : ℤ), (m : ℤ), (d : ℤ)) : ℤ × ℤ × ℤ) ∈ days.map dayOf) :
    memberDate days (dailyName y m d rel gz) = some ((y : ℤ), (m : ℤ), (d : ℤ)) := by
  have h1 : 1000 ≤ y := by
    obtain ⟨jd, hj, he⟩ := List.mem_map.1 hmem
    have := (h4 jd hj).1
    rw [he] at this
    simp only at this
    omega
  have hw := (mem_dayTexts days h4 _).2 ⟨y, m, d, hmem, h1, hy, hm, hd, rfl⟩
  have hlen : ∀ v ∈ dayTexts days, v.length = (pad4 y ++ "-".toList ++ pad2 m ++ "-".toList ++ pad2 d).length := by
    intro v hv
    obtain ⟨y', m', d', -, -, -, -, -, rfl⟩ := (mem_dayTexts days h4 v).1 hv
    rw [length_ymd, length_ymd]
  obtain ⟨c, hc⟩ := first_member (dayTexts days) _ hw hlen rel hr gz
  have hname : dailyName y m d rel gz = "AOD1B_".toList ++ ((pad4 y ++ "-".toList ++ pad2 m ++ "-".toList ++ pad2 d) ++
      ("_X_".toList ++ (rel ++ ('.' :: ("asc".toList ++ (if gz then ".gz".toList else [])))))) := by
    unfold dailyName
    have : ".asc".toList = '.' :: "asc".toList := rfl
    rw [this]
    simp only [List.append_assoc, List.cons_append]
  have hf : findall (memberRe (dayTexts days)) (dailyName y m d rel gz) =
      [(1, pad4 y ++ "-".toList ++ pad2 m ++ "-".toList ++ pad2 d) :: c] := by
    rw [hname]
    apply findall_single _ _ _ (by simp) hc
    have : runs (lit "AOD1B_".toList) [] = [] := runs_lit_none _ _ (by simp)
    unfold memberRe
    apply runs_seq_none
    exact runs_seq_none this
  unfold memberDate
  show (findall (memberRe (dayTexts days)) (dailyName y m d rel gz)).getLast?.bind _ = _
  rw [hf]
  simp only [List.getLast?_singleton, Option.bind_some]
  have hg : group ((1, pad4 y ++ "-".toList ++ pad2 m ++ "-".toList ++ pad2 d) :: c) 1 =
      pad4 y ++ '-' :: (pad2 m ++ '-' :: (pad2 d ++ [])) := by
    simp [group]
  have hnum : findall (.grp 1 digits) (pad4 y ++ '-' :: (pad2 m ++ '-' :: (pad2 d ++ []))) =
      [[(1, pad4 y)], [(1, pad2 m)], [(1, pad2 d)]] := by
    unfold findall
    have hl : (pad4 y ++ '-' :: (pad2 m ++ '-' :: (pad2 d ++ []))).length + 1 = 11 := by simp [pad4, pad2]
    rw [hl, findallN_digits _ _ _ (pad4_isDigits y) (by intro c hc; simp at hc; subst hc; decide), findallN_skip _ _ _ (by decide),
      findallN_digits _ _ _ (pad2_isDigits m) (by intro c hc; simp at hc; subst hc; decide), findallN_skip _ _ _ (by decide),
      findallN_digits _ _ _ (pad2_isDigits d) (by simp), findallN_nil]
  rw [hg, hnum]
  have g1 : group [(1, pad4 y)] 1 = pad4 y := rfl
  have g2 : group [(1, pad2 m)] 1 = pad2 m := rfl
  have g3 : group [(1, pad2 d)] 1 = pad2 d := rfl
  simp only [g1, g2, g3, pyInt_isDigits _ (pad4_isDigits y), pyInt_isDigits _ (pad2_isDigits m),
    pyInt_isDigits _ (pad2_isDigits d), GeoRead.pad4_val y hy, GeoRead.pad2_val m hm, GeoRead.pad2_val d hd]

end Verif.Dealias
