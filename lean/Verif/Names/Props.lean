import Verif.Names.Model
import Verif.Names.Search

/-!
# Which file names the patterns of `compile_regex_pattern` accept
-/
namespace Verif.Names

/-! ## Specification -/

/-- a text of one or more digits -/
def Digits (u : Name) : Prop := u ≠ [] ∧ ∀ c ∈ u, c.isDigit = true

/-- a text of one or more letters, digits, `_` and `-` -/
def Words (u : Name) : Prop := u ≠ [] ∧ ∀ c ∈ u, c.isAlphanum = true ∨ c = '_' ∨ c = '-'

/-- compressed or not, and possibly with a newline at the end (which no file name of the data centers has) -/
def Ending (z : Name) : Prop := ∃ gz nl, z = gz ++ nl ∧ (gz = [] ∨ gz = ".gz".toList) ∧ (nl = [] ∨ nl = ['\n'])

/-- the version in the name fits the version that was asked for -/
def VersionFits : Version → Name → Prop
  | .any, v => Digits v
  | .num ds, v => v = List.replicate (2 - ds.length) '0' ++ ds

/-- abbreviation of the processing center in the file names of Release-06 -/
inductive Center06 : Name → Name → Prop
  | csr : Center06 "CSR".toList "UTCSR".toList
  | gfz : Center06 "GFZ".toList "GFZOP".toList
  | jpl : Center06 "JPL".toList "JPLEM".toList

/-- what follows the product, the dates and the number of the field in the names of the releases 4 and 5 -/
def OldTail (proc drel dset t : Name) : Prop :=
  (proc = "CSR".toList ∧ drel = "RL04".toList ∧ dset = "GSM".toList ∧ t = "_UTCSR_0060_0004".toList) ∨
  (proc = "CSR".toList ∧ drel = "RL05".toList ∧ dset = "GSM".toList ∧ t = "_UTCSR_0060_0005".toList) ∨
  (proc = "GFZ".toList ∧ drel = "RL04".toList ∧ dset = "GSM".toList ∧ t = "_EIGEN_G---_0004".toList) ∨
  (proc = "GFZ".toList ∧ drel = "RL05".toList ∧ dset = "GSM".toList ∧
    (t = "_EIGEN_G---_005a".toList ∨ t = "_EIGEN_GK2-_005a".toList)) ∨
  (proc = "JPL".toList ∧ drel = "RL04".toList ∧ t = "_JPLEM_0001_0004".toList) ∨
  (proc = "JPL".toList ∧ drel = "RL05".toList ∧ t = "_JPLEM_0001_0005".toList)

/-- the products -/
def Product (dset : Name) : Prop := dset ∈ ["GAA", "GAB", "GAC", "GAD", "GSM"].map String.toList

/-- a mission that `compile_regex_pattern` lets pass -/
def MissionOk (m : Option Name) : Prop := m = none ∨ m = some [] ∨ m = some "GRAC".toList ∨ m = some "GRFO".toList

/-! ## Helper lemmas -/

theorem lang_version (ver : Version) (v : Name) : Lang ver.re v ↔ VersionFits ver v := by
  cases ver with
  | any => simp only [Version.re, lang_digits, VersionFits, Digits]
  | num ds => simp only [Version.re, lang_lit, VersionFits, zfill2]

theorem noEnd_version (ver : Version) : NoEnd ver.re := by
  cases ver with
  | any => exact noEnd_digits
  | num ds => exact noEnd_lit _

theorem lang_word (u : Name) : Lang wordPart u ↔ Words u := by
  simp only [wordPart, Lang, Words]
  have key : ∀ c : Char, wordChar c = true ↔ (c.isAlphanum = true ∨ c = '_' ∨ c = '-') := by
    intro c; simp [wordChar, or_assoc]
  constructor
  · rintro ⟨v, w, rfl, ⟨c, rfl, hc⟩, hw⟩
    refine ⟨by simp, ?_⟩
    intro x hx
    simp at hx
    rcases hx with rfl | hx
    · exact (key _).1 hc
    · exact (key _).1 (hw x hx)
  · rintro ⟨h, hu⟩
    cases u with
    | nil => exact absurd rfl h
    | cons c t => exact ⟨[c], t, rfl, ⟨c, rfl, (key _).2 (hu c (by simp))⟩, fun x hx => (key _).2 (hu x (by simp [hx]))⟩

theorem noEnd_word : NoEnd wordPart := ⟨trivial, trivial⟩

theorem noEnd_opt (e : Re) (h : NoEnd e) : NoEnd (opt e) := ⟨h, trivial⟩

/-- compile succeeds for known centers, products and missions -/
theorem compile_ok (proc drel dset : Name) (m : Option Name) (sol : Name) (ver : Version)
    (hp : proc ∈ ["CNES", "CSR", "GFZ", "JPL"].map String.toList) (hd : Product dset) (hm : MissionOk m) :
    compilePattern proc drel dset m sol ver = patternOf proc drel dset m sol ver := by
  unfold compilePattern
  rw [if_neg, if_neg (not_not.2 hp), if_neg (not_not.2 (show dset ∈ _ from hd))]
  rintro ⟨t, rfl, h1, h2, h3⟩
  rcases hm with h | h | h | h
  · simp at h
  · exact h1 (by simpa using h)
  · exact h2 (by simpa using h)
  · exact h3 (by simpa using h)

/-- the pattern of Release-06 -/
theorem accepts_rl06 (dset m center sol rel : Name) (ver : Re) (hv : NoEnd ver) (name : Name) :
    accepts (rl06Pattern dset m center sol rel ver) name = true ↔
      ∃ d1 d2 v z, Digits d1 ∧ Digits d2 ∧ Lang ver v ∧ Ending z ∧
        name = dset ++ "-2_".toList ++ d1 ++ ['-'] ++ d2 ++ ['_'] ++ m ++ ['_'] ++ center ++ ['_'] ++ sol ++ ['_'] ++
          rel ++ v ++ z := by
  unfold rl06Pattern dated gzEnd
  rw [accepts_whole]
  · simp only [List.cons_append, List.nil_append, lang_cat_cons, lang_cat_nil, lang_lit, lang_digits, lang_opt]
    constructor
    · rintro ⟨u, nl, rfl, hnl, _, _, rfl, rfl, _, _, rfl, rfl, d1, _, rfl, h1, _, _, rfl, rfl, d2, _, rfl, h2,
        _, _, rfl, rfl, _, _, rfl, rfl, _, _, rfl, rfl, _, _, rfl, rfl, _, _, rfl, rfl, _, _, rfl, rfl,
        _, _, rfl, rfl, _, _, rfl, rfl, v, _, rfl, hv', g, _, rfl, hg, rfl⟩
      exact ⟨d1, d2, v, g ++ nl, h1, h2, hv', ⟨g, nl, rfl, hg.symm, hnl⟩, by simp⟩
    · rintro ⟨d1, d2, v, z, h1, h2, h3, ⟨g, nl, rfl, hg, hnl⟩, rfl⟩
      refine ⟨_, nl, ?_, hnl, _, _, rfl, rfl, _, _, rfl, rfl, d1, _, rfl, h1, _, _, rfl, rfl, d2, _, rfl, h2,
        _, _, rfl, rfl, _, _, rfl, rfl, _, _, rfl, rfl, _, _, rfl, rfl, _, _, rfl, rfl, _, _, rfl, rfl,
        _, _, rfl, rfl, _, _, rfl, rfl, v, _, rfl, h3, g, _, rfl, hg.symm, rfl⟩
      simp
  · rw [noEnd_cat]
    intro e he
    simp only [List.cons_append, List.nil_append, List.mem_cons, List.not_mem_nil, or_false] at he
    rcases he with rfl | rfl | rfl | rfl | rfl | rfl | rfl | rfl | rfl | rfl | rfl | rfl | rfl | rfl | rfl
    all_goals first | exact noEnd_lit _ | exact noEnd_digits | exact hv | exact noEnd_opt _ (noEnd_lit _)

/-- the pattern of the releases 4 and 5 -/
theorem accepts_old (dset : Name) (mid : List Re) (hmid : ∀ e ∈ mid, NoEnd e) (name : Name) :
    accepts (oldPattern dset mid) name = true ↔
      ∃ d1 d2 n t z, Digits d1 ∧ Digits d2 ∧ Digits n ∧ Lang (cat mid) t ∧ Ending z ∧
        name = dset ++ "-2_".toList ++ d1 ++ ['-'] ++ d2 ++ ['_'] ++ n ++ t ++ z := by
  have hcat : ∀ (es fs : List Re) (u : Name), Lang (cat (es ++ fs)) u ↔
      ∃ v w, u = v ++ w ∧ Lang (cat es) v ∧ Lang (cat fs) w := by
    intro es fs
    induction es with
    | nil => intro u; simp [lang_cat_nil]
    | cons e es ih =>
      intro u
      simp only [List.cons_append, lang_cat_cons, ih]
      constructor
      · rintro ⟨v, w, rfl, hv, a, b, rfl, ha, hb⟩
        exact ⟨v ++ a, b, by simp, ⟨v, a, rfl, hv, ha⟩, hb⟩
      · rintro ⟨v, w, rfl, ⟨a, b, rfl, ha, hb⟩, hw⟩
        exact ⟨a, b ++ w, by simp, ha, b, w, rfl, hb, hw⟩
  unfold oldPattern dated gzEnd
  rw [accepts_whole]
  · simp only [List.cons_append, List.nil_append, lang_cat_cons, lang_cat_nil, lang_lit, lang_digits, lang_opt, hcat]
    constructor
    · rintro ⟨u, nl, rfl, hnl, _, _, rfl, rfl, _, _, rfl, rfl, d1, _, rfl, h1, _, _, rfl, rfl, d2, _, rfl, h2,
        _, _, rfl, rfl, n, _, rfl, hn, t, _, rfl, ht, g, _, rfl, hg, rfl⟩
      exact ⟨d1, d2, n, t, g ++ nl, h1, h2, hn, ht, ⟨g, nl, rfl, hg.symm, hnl⟩, by simp⟩
    · rintro ⟨d1, d2, n, t, z, h1, h2, h3, ht, ⟨g, nl, rfl, hg, hnl⟩, rfl⟩
      refine ⟨_, nl, ?_, hnl, _, _, rfl, rfl, _, _, rfl, rfl, d1, _, rfl, h1, _, _, rfl, rfl, d2, _, rfl, h2,
        _, _, rfl, rfl, n, _, rfl, h3, t, _, rfl, ht, g, _, rfl, hg.symm, rfl⟩
      simp
  · rw [noEnd_cat]
    intro e he
    simp only [List.cons_append, List.nil_append, List.mem_cons, List.mem_append, List.not_mem_nil, or_false] at he
    rcases he with rfl | rfl | rfl | rfl | rfl | rfl | rfl | h | rfl
    all_goals first | exact hmid _ h | exact noEnd_lit _ | exact noEnd_digits | exact noEnd_opt _ (noEnd_lit _)

/-! ## Properties -/

/-- the exceptions: exactly an unknown mission, center or product, or a laser-ranging release of CSR without a number
of the form `06.1` -/
theorem compile_raises_iff (proc drel dset : Name) (m : Option Name) (sol : Name) (ver : Version) :
    compilePattern proc drel dset m sol ver = none ↔
      ¬ MissionOk m ∨ proc ∉ ["CNES", "CSR", "GFZ", "JPL"].map String.toList ∨ ¬ Product dset ∨
      (dset = "GSM".toList ∧ proc = "CSR".toList ∧ "LRI".toList <:+ drel ∧ lriRelease drel = none) := by
  by_cases hm : MissionOk m
  · by_cases hp : proc ∈ ["CNES", "CSR", "GFZ", "JPL"].map String.toList
    · by_cases hd : Product dset
      · rw [compile_ok proc drel dset m sol ver hp hd hm]
        have hLRI : ∀ x : Name, endsLRI x = true ↔ "LRI".toList <:+ x := by
          intro x; exact List.isSuffixOf_iff_suffix
        unfold patternOf
        by_cases h1 : dset = "GSM".toList ∧ proc = "CSR".toList ∧ (drel = "RL04".toList ∨ drel = "RL05".toList)
        · rw [if_pos h1]
          simp only [hm, hp, hd, reduceCtorEq, not_true_eq_false, false_or, false_iff]
          rintro ⟨-, -, h, -⟩
          rcases h1.2.2 with rfl | rfl <;> revert h <;> decide
        rw [if_neg h1]
        by_cases h2 : dset = "GSM".toList ∧ proc = "CSR".toList ∧ drel = "RL06".toList
        · rw [if_pos h2]
          simp only [hm, hp, hd, reduceCtorEq, not_true_eq_false, false_or, false_iff]
          rintro ⟨-, -, h, -⟩
          rw [h2.2.2] at h
          revert h; decide
        rw [if_neg h2]
        by_cases h3 : dset = "GSM".toList ∧ proc = "CSR".toList ∧ endsLRI drel = true
        · rw [if_pos h3]
          simp only [hm, hp, hd, not_true_eq_false, false_or, Option.map_eq_none_iff]
          exact ⟨fun h => ⟨h3.1, h3.2.1, (hLRI drel).1 h3.2.2, h⟩, fun h => h.2.2.2⟩
        rw [if_neg h3]
        have h3' : ¬ (dset = "GSM".toList ∧ proc = "CSR".toList ∧ "LRI".toList <:+ drel ∧ lriRelease drel = none) :=
          fun h => h3 ⟨h.1, h.2.1, (hLRI drel).2 h.2.2.1⟩
        simp only [hm, hp, hd, h3', not_true_eq_false, or_self, iff_false]
        cases m <;> split_ifs <;> simp
      · simp only [hd, not_false_eq_true, true_or, or_true, iff_true]
        unfold compilePattern
        split_ifs <;> first | rfl | (exfalso; rename_i h; exact hd h)
    · simp only [hp, not_false_eq_true, true_or, or_true, iff_true]
      unfold compilePattern
      split_ifs <;> rfl
  · simp only [hm, not_false_eq_true, true_or, iff_true]
    unfold compilePattern
    rw [if_pos]
    cases m with
    | none => exact absurd (Or.inl rfl) hm
    | some t =>
      simp only [MissionOk, reduceCtorEq, Option.some.injEq, false_or, not_or] at hm
      exact ⟨t, rfl, hm⟩

/-- Release-06 monthly solutions: the pattern accepts exactly the names of the product with this mission, center,
solution and version -/
theorem rl06_names (proc center : Name) (hc : Center06 proc center) (m sol : Name) (hm : MissionOk (some m))
    (ver : Version) :
    ∃ rx, compilePattern proc "RL06".toList "GSM".toList (some m) sol ver = some rx ∧
      ∀ name, accepts rx name = true ↔
        ∃ d1 d2 v z, Digits d1 ∧ Digits d2 ∧ VersionFits ver v ∧ Ending z ∧
          name = "GSM-2_".toList ++ d1 ++ ['-'] ++ d2 ++ ['_'] ++ m ++ ['_'] ++ center ++ ['_'] ++ sol ++ "_06".toList ++
            v ++ z := by
  refine ⟨rl06Pattern "GSM".toList m center sol "06".toList ver.re, ?_, ?_⟩
  · cases hc <;> rw [compile_ok _ _ _ _ _ _ (by decide) (by unfold Product; decide) hm] <;> rfl
  · intro name
    rw [accepts_rl06 _ _ _ _ _ _ (noEnd_version ver)]
    simp only [lang_version]
    constructor
    · rintro ⟨d1, d2, v, z, h1, h2, h3, h4, rfl⟩
      exact ⟨d1, d2, v, z, h1, h2, h3, h4, by simp⟩
    · rintro ⟨d1, d2, v, z, h1, h2, h3, h4, rfl⟩
      exact ⟨d1, d2, v, z, h1, h2, h3, h4, by simp⟩

/-- without a mission (the default), the pattern of Release-06 looks for a mission called `None`: it accepts none of
the names that it accepts for GRACE or GRACE-FO -/
theorem rl06_no_mission (proc center : Name) (hc : Center06 proc center) (sol : Name) (ver : Version) :
    ∃ rx, compilePattern proc "RL06".toList "GSM".toList none sol ver = some rx ∧
      ∀ d1 d2 rest : Name, Digits d1 → Digits d2 → ∀ m ∈ ["GRAC".toList, "GRFO".toList],
        accepts rx ("GSM-2_".toList ++ d1 ++ ['-'] ++ d2 ++ ['_'] ++ m ++ rest) = false := by
  refine ⟨rl06Pattern "GSM".toList "None".toList center sol "06".toList ver.re, ?_, ?_⟩
  · cases hc <;> rw [compile_ok _ _ _ _ _ _ (by decide) (by unfold Product; decide) (Or.inl rfl)] <;> rfl
  · intro d1 d2 rest h1 h2 m hm
    rw [Bool.eq_false_iff]
    intro h
    rw [accepts_rl06 _ _ _ _ _ _ (noEnd_version ver)] at h
    obtain ⟨e1, e2, v, z, k1, k2, -, -, h⟩ := h
    have cut : ∀ (a b : Name) (x : Char) (s t : Name), (∀ c ∈ a, c.isDigit = true) → (∀ c ∈ b, c.isDigit = true) →
        x.isDigit = false → a ++ x :: s = b ++ x :: t → s = t := by
      intro a
      induction a with
      | nil =>
        intro b x s t _ hb hx he
        cases b with
        | nil => simpa using he
        | cons d b =>
          simp only [List.nil_append, List.cons_append, List.cons.injEq] at he
          have := hb d (by simp)
          rw [← he.1, hx] at this; simp at this
      | cons c a ih =>
        intro b x s t ha hb hx he
        cases b with
        | nil =>
          simp only [List.nil_append, List.cons_append, List.cons.injEq] at he
          have := ha c (by simp)
          rw [he.1, hx] at this; simp at this
        | cons d b =>
          simp only [List.cons_append, List.cons.injEq] at he
          exact ih b x s t (fun y hy => ha y (by simp [hy])) (fun y hy => hb y (by simp [hy])) hx he.2
    have h' : d1 ++ '-' :: (d2 ++ '_' :: (m ++ rest)) = e1 ++ '-' :: (e2 ++ '_' :: ("None".toList ++
        '_' :: (center ++ '_' :: (sol ++ '_' :: ("06".toList ++ (v ++ z)))))) := by
      simpa using h
    have h2' := cut _ _ _ _ _ h1.2 k1.2 (by decide) h'
    have h3' := cut _ _ _ _ _ h2.2 k2.2 (by decide) h2'
    simp only [List.mem_cons, List.not_mem_nil, or_false] at hm
    rcases hm with rfl | rfl <;> simp at h3'

/-- releases 4 and 5 (monthly solutions of CSR and GFZ, all products of JPL): the pattern accepts exactly these names,
whatever mission, solution and version is asked for -/
theorem old_names (proc drel dset : Name) (hd : Product dset) (h : ∃ t, OldTail proc drel dset t) (m : Option Name)
    (hm : MissionOk m) (sol : Name) (ver : Version) :
    ∃ rx, compilePattern proc drel dset m sol ver = some rx ∧
      ∀ name, accepts rx name = true ↔
        ∃ d1 d2 n t z, Digits d1 ∧ Digits d2 ∧ Digits n ∧ OldTail proc drel dset t ∧ Ending z ∧
          name = dset ++ "-2_".toList ++ d1 ++ ['-'] ++ d2 ++ ['_'] ++ n ++ t ++ z := by
  obtain ⟨t, ht⟩ := h
  have one : ∀ (w : Name), (∀ t', OldTail proc drel dset t' ↔ t' = w) →
      ∀ name, accepts (oldPattern dset [lit w]) name = true ↔
        ∃ d1 d2 n t z, Digits d1 ∧ Digits d2 ∧ Digits n ∧ OldTail proc drel dset t ∧ Ending z ∧
          name = dset ++ "-2_".toList ++ d1 ++ ['-'] ++ d2 ++ ['_'] ++ n ++ t ++ z := by
    intro w hw name
    rw [accepts_old _ _ (by intro e he; simp at he; subst he; exact noEnd_lit _)]
    simp only [lang_cat_cons, lang_cat_nil, lang_lit, hw]
    constructor
    · rintro ⟨d1, d2, n, t, z, h1, h2, h3, ⟨v, x, rfl, rfl, rfl⟩, h5, rfl⟩
      exact ⟨d1, d2, n, v, z, h1, h2, h3, rfl, h5, by simp⟩
    · rintro ⟨d1, d2, n, t, z, h1, h2, h3, rfl, h5, rfl⟩
      exact ⟨d1, d2, n, t, z, h1, h2, h3, ⟨t, [], by simp, rfl, rfl⟩, h5, rfl⟩
  have two : drel = "RL05".toList → proc = "GFZ".toList → dset = "GSM".toList →
      ∀ name, accepts (oldPattern dset [lit "_EIGEN_".toList, .alt (lit "G---".toList) (lit "GK2-".toList),
        lit "_005a".toList]) name = true ↔
        ∃ d1 d2 n t z, Digits d1 ∧ Digits d2 ∧ Digits n ∧ OldTail proc drel dset t ∧ Ending z ∧
          name = dset ++ "-2_".toList ++ d1 ++ ['-'] ++ d2 ++ ['_'] ++ n ++ t ++ z := by
    rintro rfl rfl rfl name
    rw [accepts_old _ _ (by
      intro e he
      simp only [List.mem_cons, List.not_mem_nil, or_false] at he
      rcases he with rfl | rfl | rfl
      · exact noEnd_lit _
      · exact ⟨noEnd_lit _, noEnd_lit _⟩
      · exact noEnd_lit _)]
    have hw : ∀ t', OldTail "GFZ".toList "RL05".toList "GSM".toList t' ↔
        t' = "_EIGEN_G---_005a".toList ∨ t' = "_EIGEN_GK2-_005a".toList := by
      intro t'; simp [OldTail]
    simp only [lang_cat_cons, lang_cat_nil, lang_lit, hw, Lang]
    constructor
    · rintro ⟨d1, d2, n, t, z, h1, h2, h3, ⟨v, x, rfl, rfl, y, _, rfl, hy, a, b, rfl, rfl, rfl⟩, h5, rfl⟩
      refine ⟨d1, d2, n, _, z, h1, h2, h3, ?_, h5, rfl⟩
      rcases hy with rfl | rfl
      · left; rfl
      · right; rfl
    · rintro ⟨d1, d2, n, t, z, h1, h2, h3, rfl | rfl, h5, rfl⟩
      · exact ⟨d1, d2, n, _, z, h1, h2, h3, ⟨_, _, rfl, rfl, "G---".toList, "_005a".toList, rfl, Or.inl rfl,
          "_005a".toList, [], rfl, rfl, rfl⟩, h5, rfl⟩
      · exact ⟨d1, d2, n, _, z, h1, h2, h3, ⟨_, _, rfl, rfl, "GK2-".toList, "_005a".toList, rfl, Or.inr rfl,
          "_005a".toList, [], rfl, rfl, rfl⟩, h5, rfl⟩
  rcases ht with ⟨rfl, rfl, rfl, -⟩ | ⟨rfl, rfl, rfl, -⟩ | ⟨rfl, rfl, rfl, -⟩ | ⟨rfl, rfl, rfl, -⟩ | ⟨rfl, rfl, -⟩ |
    ⟨rfl, rfl, -⟩
  · refine ⟨oldPattern "GSM".toList [lit "_UTCSR_0060_0004".toList], ?_, one _ (by intro t'; simp [OldTail])⟩
    rw [compile_ok _ _ _ _ _ _ (by decide) hd hm]; rfl
  · refine ⟨oldPattern "GSM".toList [lit "_UTCSR_0060_0005".toList], ?_, one _ (by intro t'; simp [OldTail])⟩
    rw [compile_ok _ _ _ _ _ _ (by decide) hd hm]; rfl
  · refine ⟨oldPattern "GSM".toList [lit "_EIGEN_G---_0004".toList], ?_, one _ (by intro t'; simp [OldTail])⟩
    rw [compile_ok _ _ _ _ _ _ (by decide) hd hm]; rfl
  · refine ⟨_, ?_, two rfl rfl rfl⟩
    rw [compile_ok _ _ _ _ _ _ (by decide) hd hm]; rfl
  · refine ⟨oldPattern dset [lit "_JPLEM_0001_0004".toList], ?_, one _ (by intro t'; simp [OldTail])⟩
    rw [compile_ok _ _ _ _ _ _ (by decide) hd hm]
    unfold patternOf
    rw [if_neg (by rintro ⟨-, h, -⟩; revert h; decide), if_neg (by rintro ⟨-, h, -⟩; revert h; decide),
      if_neg (by rintro ⟨-, h, -⟩; revert h; decide), if_neg (by rintro ⟨-, h, -⟩; revert h; decide),
      if_neg (by rintro ⟨-, h, -⟩; revert h; decide), if_neg (by rintro ⟨-, h, -⟩; revert h; decide),
      if_pos ⟨rfl, Or.inl rfl⟩]
    rfl
  · refine ⟨oldPattern dset [lit "_JPLEM_0001_0005".toList], ?_, one _ (by intro t'; simp [OldTail])⟩
    rw [compile_ok _ _ _ _ _ _ (by decide) hd hm]
    unfold patternOf
    rw [if_neg (by rintro ⟨-, h, -⟩; revert h; decide), if_neg (by rintro ⟨-, h, -⟩; revert h; decide),
      if_neg (by rintro ⟨-, h, -⟩; revert h; decide), if_neg (by rintro ⟨-, h, -⟩; revert h; decide),
      if_neg (by rintro ⟨-, h, -⟩; revert h; decide), if_neg (by rintro ⟨-, h, -⟩; revert h; decide),
      if_pos ⟨rfl, Or.inr rfl⟩]
    rfl

/-- laser-ranging solutions of CSR: `06.1` in the name of the release gives `_EA01_0601` -/
theorem lri_names (drel rel ver : Name) (he : "LRI".toList <:+ drel) (hr : lriRelease drel = some (rel, ver)) (m sol : Name)
    (hm : MissionOk (some m)) (v' : Version) :
    ∃ rx, compilePattern "CSR".toList drel "GSM".toList (some m) sol v' = some rx ∧
      ∀ name, accepts rx name = true ↔
        ∃ d1 d2 z, Digits d1 ∧ Digits d2 ∧ Ending z ∧
          name = "GSM-2_".toList ++ d1 ++ ['-'] ++ d2 ++ ['_'] ++ m ++ "_UTCSR_EA01_".toList ++
            (List.replicate (2 - rel.length) '0' ++ rel) ++ (List.replicate (2 - ver.length) '0' ++ ver) ++ z := by
  refine ⟨rl06Pattern "GSM".toList m "UTCSR".toList "EA01".toList (zfill2 rel) (lit (zfill2 ver)), ?_, ?_⟩
  · rw [compile_ok _ _ _ _ _ _ (by decide) (by unfold Product; decide) hm]
    unfold patternOf
    rw [if_neg (by
        rintro ⟨-, -, rfl | rfl⟩ <;> revert he <;> decide), if_neg (by rintro ⟨-, -, rfl⟩; revert he; decide),
      if_pos ⟨rfl, rfl, List.isSuffixOf_iff_suffix.2 he⟩, hr]
    rfl
  · intro name
    rw [accepts_rl06 _ _ _ _ _ _ (noEnd_lit _)]
    simp only [lang_lit, zfill2]
    constructor
    · rintro ⟨d1, d2, v, z, h1, h2, rfl, h4, rfl⟩
      exact ⟨d1, d2, z, h1, h2, h4, by simp⟩
    · rintro ⟨d1, d2, z, h1, h2, h4, rfl⟩
      exact ⟨d1, d2, _, z, h1, h2, rfl, h4, by simp⟩

/-- a release written like `RL06.1_LRI` has the numbers `06` and `1` -/
theorem lriRelease_text (pre rel ver post : Name) (hpre : ∀ c ∈ pre, c.isDigit = false) (hrel : Digits rel)
    (hver : Digits ver) (hpost : ∀ c ∈ post, c.isDigit = false) :
    lriRelease (pre ++ (rel ++ (['.'] ++ (ver ++ post)))) = some (rel, ver) := by
  have nodigit : ∀ s : Name, (∀ c ∈ s.head?, c.isDigit = false) →
      runs (cat [.grp 1 digits, lit ".".toList, .grp 2 digits]) s = [] := by
    intro s hs
    cases s with
    | nil => rfl
    | cons c t =>
      have := hs c (by simp)
      simp [cat, runs, digits, digit, this]
  have h1 : First (cat [.grp 1 digits, lit ".".toList, .grp 2 digits]) (rel ++ (['.'] ++ (ver ++ post)))
      ([(1, rel)] ++ ([] ++ ([(2, ver)] ++ []))) post :=
    first_cat (first_grp 1 (first_digits rel _ hrel.1 hrel.2 (by intro c hc; simp at hc; subst hc; decide)))
      (first_cat (first_lit _ _) (first_cat (first_grp 2 (first_digits ver post hver.1 hver.2
        (fun c hc => hpost c (List.mem_of_mem_head? hc)))) (first_cat_nil _)))
  have := findall_single _ pre _ _ _ (by
    intro k hk
    apply nodigit
    intro c hc
    rw [List.drop_append_of_le_length (by omega)] at hc
    cases hd : pre.drop k with
    | nil => have := congrArg List.length hd; simp at this; omega
    | cons a t =>
      rw [hd] at hc
      simp at hc
      subst hc
      exact hpre a (List.mem_of_mem_drop (hd ▸ List.mem_cons_self))) h1 (by simp; omega) (by
    intro k
    apply nodigit
    intro c hc
    exact hpost c (List.mem_of_mem_drop (List.mem_of_mem_head? hc)))
  unfold lriRelease
  rw [this]
  rfl

/-- products of CNES -/
theorem cnes_names (drel dset : Name) (hd : Product dset) (m : Option Name) (hm : MissionOk m) (sol : Name) (ver : Version) :
    ∃ rx, compilePattern "CNES".toList drel dset m sol ver = some rx ∧
      ∀ name, accepts rx name = true ↔
        ∃ d1 d2 n w t z, Digits d1 ∧ Digits d2 ∧ Digits n ∧ Words w ∧ (t = [] ∨ t = ".txt".toList) ∧ Ending z ∧
          name = dset ++ "-2_".toList ++ d1 ++ ['-'] ++ d2 ++ ['_'] ++ n ++ "_GRGS_".toList ++ w ++ t ++ z := by
  refine ⟨_, by
    rw [compile_ok _ _ _ _ _ _ (by decide) hd hm]
    unfold patternOf
    rw [if_neg (by rintro ⟨-, h, -⟩; revert h; decide), if_neg (by rintro ⟨-, h, -⟩; revert h; decide),
      if_neg (by rintro ⟨-, h, -⟩; revert h; decide), if_neg (by rintro ⟨-, h, -⟩; revert h; decide),
      if_neg (by rintro ⟨-, h, -⟩; revert h; decide), if_neg (by rintro ⟨-, h, -⟩; revert h; decide),
      if_neg (by rintro ⟨h, -⟩; revert h; decide), if_neg (by rintro ⟨-, h, -⟩; revert h; decide), if_pos rfl], ?_⟩
  intro name
  unfold dated gzEnd
  rw [accepts_whole]
  · simp only [List.cons_append, List.nil_append, lang_cat_cons, lang_cat_nil, lang_lit, lang_digits, lang_opt, lang_word]
    constructor
    · rintro ⟨u, nl, rfl, hnl, _, _, rfl, rfl, _, _, rfl, rfl, d1, _, rfl, h1, _, _, rfl, rfl, d2, _, rfl, h2,
        _, _, rfl, rfl, n, _, rfl, hn, _, _, rfl, rfl, w, _, rfl, hw, t, _, rfl, ht, g, _, rfl, hg, rfl⟩
      exact ⟨d1, d2, n, w, t, g ++ nl, h1, h2, hn, hw, ht.symm, ⟨g, nl, rfl, hg.symm, hnl⟩, by simp⟩
    · rintro ⟨d1, d2, n, w, t, z, h1, h2, h3, hw, ht, ⟨g, nl, rfl, hg, hnl⟩, rfl⟩
      refine ⟨_, nl, ?_, hnl, _, _, rfl, rfl, _, _, rfl, rfl, d1, _, rfl, h1, _, _, rfl, rfl, d2, _, rfl, h2,
        _, _, rfl, rfl, n, _, rfl, h3, _, _, rfl, rfl, w, _, rfl, hw, t, _, rfl, ht.symm, g, _, rfl, hg.symm, rfl⟩
      simp
  · rw [noEnd_cat]
    intro e he
    simp only [List.cons_append, List.nil_append, List.mem_cons, List.not_mem_nil, or_false] at he
    rcases he with rfl | rfl | rfl | rfl | rfl | rfl | rfl | rfl | rfl | rfl | rfl
    all_goals first | exact noEnd_lit _ | exact noEnd_digits | exact noEnd_word | exact noEnd_opt _ (noEnd_lit _)

/-- the products that have no pattern of their own: everything of CSR and GFZ but the monthly solutions, the
dealiasing products of JPL from Release-06 on, and releases with other names -/
def Dealias (proc drel dset : Name) : Prop :=
  (proc = "CSR".toList ∧ (dset ≠ "GSM".toList ∨ drel ∉ ["RL04", "RL05", "RL06"].map String.toList ∧ ¬ "LRI".toList <:+ drel)) ∨
  (proc = "GFZ".toList ∧ (dset ≠ "GSM".toList ∨ drel ∉ ["RL04", "RL05", "RL06"].map String.toList)) ∨
  (proc = "JPL".toList ∧ drel ≠ "RL04".toList ∧ drel ≠ "RL05".toList ∧ (dset ≠ "GSM".toList ∨ drel ≠ "RL06".toList))

theorem patternOf_dealias (proc drel dset : Name) (h : Dealias proc drel dset) (m : Option Name) (sol : Name) (ver : Version) :
    patternOf proc drel dset m sol ver = match m with
      | some m => some (.seq (cat ([lit dset, lit "-2_".toList, wordPart, lit "_".toList, lit m, lit "_".toList,
          wordPart] ++ gzEnd)) .eos)
      | none => some (.seq (cat ([lit dset, lit "-2_".toList, wordPart] ++ gzEnd)) .eos) := by
  have hL : ∀ x : Name, endsLRI x = true ↔ "LRI".toList <:+ x := fun x => List.isSuffixOf_iff_suffix
  unfold patternOf
  simp only [hL]
  unfold Dealias at h
  rw [if_neg, if_neg, if_neg, if_neg, if_neg, if_neg, if_neg, if_neg, if_neg]
  · cases m <;> rfl
  all_goals
    rintro hh
    rcases h with ⟨rfl, h⟩ | ⟨rfl, h⟩ | ⟨rfl, h⟩ <;> simp at h hh <;> tauto

/-- the other products with a mission: the mission stands between underscores -/
theorem dealias_names (proc drel dset : Name) (h : Dealias proc drel dset) (hd : Product dset) (m : Name)
    (hm : MissionOk (some m)) (sol : Name) (ver : Version) :
    ∃ rx, compilePattern proc drel dset (some m) sol ver = some rx ∧
      ∀ name, accepts rx name = true ↔
        ∃ a b z, Words a ∧ Words b ∧ Ending z ∧
          name = dset ++ "-2_".toList ++ a ++ ['_'] ++ m ++ ['_'] ++ b ++ z := by
  have hp : proc ∈ ["CNES", "CSR", "GFZ", "JPL"].map String.toList := by
    rcases h with ⟨rfl, -⟩ | ⟨rfl, -⟩ | ⟨rfl, -⟩ <;> decide
  refine ⟨_, by rw [compile_ok _ _ _ _ _ _ hp hd hm, patternOf_dealias _ _ _ h], ?_⟩
  intro name
  unfold gzEnd
  rw [accepts_whole]
  · simp only [List.cons_append, List.nil_append, lang_cat_cons, lang_cat_nil, lang_lit, lang_opt, lang_word]
    constructor
    · rintro ⟨u, nl, rfl, hnl, _, _, rfl, rfl, _, _, rfl, rfl, a, _, rfl, ha, _, _, rfl, rfl, _, _, rfl, rfl,
        _, _, rfl, rfl, b, _, rfl, hb, g, _, rfl, hg, rfl⟩
      exact ⟨a, b, g ++ nl, ha, hb, ⟨g, nl, rfl, hg.symm, hnl⟩, by simp⟩
    · rintro ⟨a, b, z, ha, hb, ⟨g, nl, rfl, hg, hnl⟩, rfl⟩
      refine ⟨_, nl, ?_, hnl, _, _, rfl, rfl, _, _, rfl, rfl, a, _, rfl, ha, _, _, rfl, rfl, _, _, rfl, rfl,
        _, _, rfl, rfl, b, _, rfl, hb, g, _, rfl, hg.symm, rfl⟩
      simp
  · rw [noEnd_cat]
    intro e he
    simp only [List.cons_append, List.nil_append, List.mem_cons, List.not_mem_nil, or_false] at he
    rcases he with rfl | rfl | rfl | rfl | rfl | rfl | rfl | rfl
    all_goals first | exact noEnd_lit _ | exact noEnd_word | exact noEnd_opt _ (noEnd_lit _)

/-- the other products without a mission -/
theorem dealias_names_all (proc drel dset : Name) (h : Dealias proc drel dset) (hd : Product dset) (sol : Name)
    (ver : Version) :
    ∃ rx, compilePattern proc drel dset none sol ver = some rx ∧
      ∀ name, accepts rx name = true ↔
        ∃ a z, Words a ∧ Ending z ∧ name = dset ++ "-2_".toList ++ a ++ z := by
  have hp : proc ∈ ["CNES", "CSR", "GFZ", "JPL"].map String.toList := by
    rcases h with ⟨rfl, -⟩ | ⟨rfl, -⟩ | ⟨rfl, -⟩ <;> decide
  refine ⟨_, by rw [compile_ok _ _ _ _ _ _ hp hd (Or.inl rfl), patternOf_dealias _ _ _ h], ?_⟩
  intro name
  unfold gzEnd
  rw [accepts_whole]
  · simp only [List.cons_append, List.nil_append, lang_cat_cons, lang_cat_nil, lang_lit, lang_opt, lang_word]
    constructor
    · rintro ⟨u, nl, rfl, hnl, _, _, rfl, rfl, _, _, rfl, rfl, a, _, rfl, ha, g, _, rfl, hg, rfl⟩
      exact ⟨a, g ++ nl, ha, ⟨g, nl, rfl, hg.symm, hnl⟩, by simp⟩
    · rintro ⟨a, z, ha, ⟨g, nl, rfl, hg, hnl⟩, rfl⟩
      refine ⟨_, nl, ?_, hnl, _, _, rfl, rfl, _, _, rfl, rfl, a, _, rfl, ha, g, _, rfl, hg.symm, rfl⟩
      simp
  · rw [noEnd_cat]
    intro e he
    simp only [List.cons_append, List.nil_append, List.mem_cons, List.not_mem_nil, or_false] at he
    rcases he with rfl | rfl | rfl | rfl
    all_goals first | exact noEnd_lit _ | exact noEnd_word | exact noEnd_opt _ (noEnd_lit _)

/-- with a mission, no name without the mission in it is accepted: the dealiasing products of the releases 4 and 5, as
`GAC-2_2005001-2005031_0025_UTCSR_0000_0005`, are never found -/
theorem dealias_old_missed (proc drel dset : Name) (h : Dealias proc drel dset) (hd : Product dset) (m : Name)
    (hm : m = "GRAC".toList ∨ m = "GRFO".toList) (sol : Name) (ver : Version) (rest : Name)
    (hrest : ¬ m <:+: dset ++ rest) :
    ∃ rx, compilePattern proc drel dset (some m) sol ver = some rx ∧ accepts rx (dset ++ rest) = false := by
  obtain ⟨rx, h1, h2⟩ := dealias_names proc drel dset h hd m (by rcases hm with rfl | rfl <;> simp [MissionOk]) sol ver
  refine ⟨rx, h1, ?_⟩
  rw [Bool.eq_false_iff]
  intro hacc
  obtain ⟨a, b, z, -, -, -, he⟩ := (h2 _).1 hacc
  exact hrest ⟨dset ++ "-2_".toList ++ a ++ ['_'], ['_'] ++ b ++ z, by rw [he]; simp⟩

end Verif.Names
