import Verif.GraceText.Props2

/-!
# C91: quotations in headers, and what the written header says
-/
namespace Verif.GraceText
open Verif.SLR Verif.Names Verif.Input Verif.HarmIO Verif.SpatialIO

/-- the match of a quotation with a colon and a blank in it -/
theorem first_quote (k v b : List Char) (s : Char) (hs : isSpace s = true) (hk : '"' ∉ k ∧ ':' ∉ k ∧ '\n' ∉ k)
    (hv : '"' ∉ v ∧ '\n' ∉ v) :
    ∃ c, First quoteRe ('"' :: k ++ ':' :: s :: v ++ '"' :: b) c b ∧ group c 1 = k ∧ group c 2 = v := by
  have any : ∀ u : List Char, '\n' ∉ u → ∀ c ∈ u, anyChar c = true := by
    intro u hu c hc
    have : c ≠ '\n' := by rintro rfl; exact hu hc
    simpa [anyChar] using this
  have before : ∀ (x : Char) (u r v w : List Char) (es : List Re), x ∉ u → u ++ r = v ++ w → v.length < u.length →
      runs (cat (lit [x] :: es)) w = [] := by
    intro x u r v w es hx he hl
    have hv : v = u.take v.length := by
      have := congrArg (List.take v.length) he
      rw [List.take_append_of_le_length hl.le, List.take_left] at this
      exact this.symm
    have hw : w = u.drop v.length ++ r := by
      have := congrArg (List.drop v.length) he
      rw [List.drop_append_of_le_length hl.le, List.drop_left] at this
      exact this.symm
    cases hd : u.drop v.length with
    | nil =>
      have := congrArg List.length hd
      simp at this; omega
    | cons c t =>
      rw [hw, hd]
      refine runs_sep_none x c _ es ?_
      rintro rfl
      exact hx (List.mem_of_mem_drop (by rw [hd]; simp))
  have h5 : First (cat [lit ['"']]) ('"' :: b) ([] ++ []) b := first_cat (first_lit ['"'] b) (first_cat_nil b)
  have h4 : First (cat [.grp 2 (.many false anyChar), lit ['"']]) (v ++ '"' :: b) ((2, v) :: ([] ++ [])) b :=
    first_lazy 2 anyChar _ v _ b _ (any v hv.2) h5 fun x y he hl => before '"' v _ x y [] hv.1 he hl
  have h3 : First (cat [.chr isSpace, .grp 2 (.many false anyChar), lit ['"']]) (s :: (v ++ '"' :: b)) _ b :=
    first_cat (first_chr isSpace s _ hs) h4
  have h2 : First (cat [lit [':'], .chr isSpace, .grp 2 (.many false anyChar), lit ['"']]) (':' :: s :: (v ++ '"' :: b)) _ b :=
    first_cat (first_lit [':'] _) h3
  have h1 : First (cat [.grp 1 (.many false anyChar), lit [':'], .chr isSpace, .grp 2 (.many false anyChar), lit ['"']])
      (k ++ ':' :: s :: (v ++ '"' :: b)) _ b :=
    first_lazy 1 anyChar _ k _ b _ (any k hk.2.2) h2 fun x y he hl => before ':' k _ x y _ hk.2.1 he hl
  have h0 := first_cat (first_lit ['"'] _) h1
  refine ⟨[(1, k), (2, v)], ?_, ?_, ?_⟩
  · simpa [quoteRe] using h0
  · rfl
  · rfl

/-- C91: a colon and a blank within a quotation in the header, which YAML would not accept, are replaced by a comma and a blank -/
theorem quote_replaced (a k v b : List Char) (s : Char) (hs : isSpace s = true) (ha : '"' ∉ a)
    (hk : '"' ∉ k ∧ ':' ∉ k ∧ '\n' ∉ k) (hv : '"' ∉ v ∧ '\n' ∉ v) (hb : '"' ∉ b) (n : ℕ) (hn : a.length < n) :
    subQuotes n (a ++ ('"' :: k ++ ':' :: s :: v ++ '"' :: b)) = a ++ ('"' :: k ++ [',', ' '] ++ v ++ '"' :: b) := by
  induction a generalizing n with
  | nil =>
    obtain ⟨m, rfl⟩ : ∃ m, n = m + 1 := ⟨n - 1, by simp at hn; omega⟩
    obtain ⟨c, hc, g1, g2⟩ := first_quote k v b s hs hk hv
    obtain ⟨l, hl⟩ := (first_iff ..).1 hc
    simp only [List.nil_append, List.cons_append] at hl ⊢
    rw [subQuotes, hl]
    simp only [g1, g2]
    rw [subQuotes_plain _ b hb]
    simp
  | cons c a ih =>
    obtain ⟨m, rfl⟩ : ∃ m, n = m + 1 := ⟨n - 1, by simp at hn; omega⟩
    have hc : c ≠ '"' := by rintro rfl; exact ha (by simp)
    rw [List.cons_append, subQuotes, show runs quoteRe _ = [] from runs_sep_none '"' c _ _ hc]
    simp only
    rw [ih (fun h => ha (by simp [h])) m (by simp at hn; omega)]
    rfl

/-- C91: lines without a colon are not changed -/
theorem quote_kept (n : ℕ) (x : List Char) (h : ':' ∉ x) : subQuotes n x = x := by
  induction n generalizing x with
  | zero => rfl
  | succ n ih =>
    cases x with
    | nil => rfl
    | cons c x =>
      have hnone : runs quoteRe (c :: x) = [] := by
        by_contra hne
        obtain ⟨r, d, hm⟩ := (runs_ne_nil _ _).1 hne
        have hno : NoEnd quoteRe := by
          unfold quoteRe
          rw [noEnd_cat]
          simp only [List.forall_mem_cons]
          exact ⟨noEnd_lit _, trivial, noEnd_lit _, trivial, trivial, noEnd_lit _, by simp⟩
        obtain ⟨u, hu, lu⟩ := (runs_lang quoteRe hno _ r).1 ⟨d, hm⟩
        simp only [quoteRe, lang_cat_cons, lang_cat_nil, lang_lit, Lang] at lu
        obtain ⟨q, w, rfl, rfl, k, w, rfl, -, e, w, rfl, rfl, -⟩ := lu
        apply h
        rw [hu]; simp
      rw [subQuotes, hnone]
      simp only
      rw [ih x fun hx => h (by simp [hx])]

example : subQuotes 40 "    title: \"GRACE: Level-2\"".toList = "    title: \"GRACE, Level-2\"".toList := by decide +kernel

/-- C91: `rstrip` removes the blanks at the end of a line and nothing else -/
theorem rstrip_spec (x : List Char) :
    ∃ b, x = rstrip x ++ b ∧ (∀ c ∈ b, isSpace c = true) ∧ ∀ c ∈ (rstrip x).getLast?, isSpace c = false := by
  refine ⟨(x.reverse.takeWhile isSpace).reverse, ?_, ?_, ?_⟩
  · unfold rstrip
    rw [← List.reverse_append, List.takeWhile_append_dropWhile, List.reverse_reverse]
  · intro c hc
    rw [List.mem_reverse] at hc
    exact List.all_eq_true.1 (List.all_takeWhile (l := x.reverse) (p := isSpace)) c hc
  · intro c hc
    unfold rstrip at hc
    rw [List.getLast?_reverse] at hc
    cases h : x.reverse.dropWhile isSpace with
    | nil => rw [h] at hc; simp at hc
    | cons d t =>
      rw [h] at hc
      simp at hc
      subst hc
      have := List.head_dropWhile_not isSpace (by rw [h]; simp : x.reverse.dropWhile isSpace ≠ [])
      simpa [h] using this

/-! ## The written header -/

/-- C91: the header that is written states degree and order (both as the maximum degree), product, normalization, gravity constant
and radius, institution, release, first and last day of the month, the day of writing, and the columns of the data; it ends
with the end mark -/
theorem header_states (o : Shm) (summary : String) (today : List Char) :
    let h := shmHeader o summary today
    ("    degree                : ".toList ++ (natDigits o.lmax).map dchar) ∈ h ∧
    ("    order                 : ".toList ++ (natDigits o.lmax).map dchar) ∈ h ∧
    ("    product_id            : ".toList ++ o.product ++ "-2".toList) ∈ h ∧
    "    normalization         : fully normalized".toList ∈ h ∧
    ["    earth_gravity_param   :".toList, "      long_name           : gravitational constant times mass of Earth".toList,
      "      units               : m3/s2".toList, "      value               : 3.9860044180E+14".toList] <:+: h ∧
    ["    mean_equator_radius   :".toList, "      long_name           : mean equator radius".toList,
      "      units               : meters".toList, "      value               : 6.3781366000E+06".toList] <:+: h ∧
    ("    title                 : ".toList ++ (if o.month ≤ 186 then "GRACE" else "GRACE-FO").toList ++
      " Geopotential ".toList ++ o.product ++ " Coefficients ".toList ++ o.center ++ " ".toList ++ o.release) ∈ h ∧
    ("    summary               : ".toList ++ summary.toList) ∈ h ∧
    ("    source                : All data from AOD1B ".toList ++ o.release) ∈ h ∧
    ("    product_version       : Release-".toList ++ o.release.drop 2) ∈ h ∧
    ("    time_coverage_start   : ".toList ++ o.startTime.1 ++ ['-'] ++ o.startTime.2.1 ++ ['-'] ++ o.startTime.2.2) ∈ h ∧
    ("    time_coverage_end     : ".toList ++ o.endTime.1 ++ ['-'] ++ o.endTime.2.1 ++ ['-'] ++ o.endTime.2.2) ∈ h ∧
    ("    date_created          : ".toList ++ today) ∈ h ∧
    ["    clm                   :".toList,
      "      long_name           : Clm coefficient; cosine coefficient for degree l and order m".toList,
      "      data_type           : double precision".toList, "      comment             : 4th column".toList] <:+: h ∧
    ["    slm                   :".toList,
      "      long_name           : Slm coefficient; sine coefficient for degree l and order m".toList,
      "      data_type           : double precision".toList, "      comment             : 5th column".toList] <:+: h ∧
    h.head? = some "header:".toList ∧ h.getLast? = some "# End of YAML header".toList := by
  have m1 : ∀ x, x ∈ printHeader o → x ∈ shmHeader o summary today := fun x h => by simp [shmHeader, h]
  have m2 : ∀ x, x ∈ printHarmonic o → x ∈ shmHeader o summary today := fun x h => by simp [shmHeader, h]
  have m3 : ∀ x, x ∈ printGlobal o summary today → x ∈ shmHeader o summary today := fun x h => by simp [shmHeader, h]
  have i2 : ∀ x, x <:+: printHarmonic o → x <:+: shmHeader o summary today := by
    rintro x ⟨s, t, h⟩
    exact ⟨printHeader o ++ s, t ++ (printGlobal o summary today ++ printVariables), by simp [shmHeader, ← h]⟩
  have i4 : ∀ x, x <:+: printVariables → x <:+: shmHeader o summary today := by
    rintro x ⟨s, t, h⟩
    exact ⟨printHeader o ++ printHarmonic o ++ printGlobal o summary today ++ s, t, by simp [shmHeader, ← h]⟩
  have hd : fmtD 0 o.lmax = (natDigits o.lmax).map dchar := by simp [fmtD, pad]
  refine ⟨m1 _ ?_, m1 _ ?_, m2 _ ?_, m2 _ ?_, i2 _ ?_, i2 _ ?_, m3 _ ?_, m3 _ ?_, m3 _ ?_, m3 _ ?_, m3 _ ?_, m3 _ ?_, m3 _ ?_,
    i4 _ ?_, i4 _ ?_, ?_, ?_⟩
  · have e : "    degree                : ".toList = line4 "degree" ++ " ".toList := by decide +kernel
    rw [← hd, e]
    simp only [printHeader, line4v, List.mem_cons, true_or, or_true]
  · have e : "    order                 : ".toList = line4 "order" ++ " ".toList := by decide +kernel
    rw [← hd, e]
    simp only [printHeader, line4v, List.mem_cons, true_or, or_true]
  · have e : "    product_id            : ".toList = line4 "product_id" ++ " ".toList := by decide +kernel
    rw [e]
    simp only [printHarmonic, line4v, List.mem_cons, true_or, or_true, List.append_assoc]
  · have e : "    normalization         : fully normalized".toList = line4v "normalization" "fully normalized".toList := by
      decide +kernel
    rw [e]
    simp only [printHarmonic, List.mem_cons, true_or, or_true]
  · have e : ["    earth_gravity_param   :".toList,
        "      long_name           : gravitational constant times mass of Earth".toList,
        "      units               : m3/s2".toList, "      value               : 3.9860044180E+14".toList] =
        [line4 "earth_gravity_param", line6v "long_name" "gravitational constant times mass of Earth",
          line6v "units" "m3/s2", line6v "value" "3.9860044180E+14"] := by decide +kernel
    rw [e]
    exact ⟨(printHarmonic o).take 6, (printHarmonic o).drop 10, rfl⟩
  · have e : ["    mean_equator_radius   :".toList, "      long_name           : mean equator radius".toList,
        "      units               : meters".toList, "      value               : 6.3781366000E+06".toList] =
        [line4 "mean_equator_radius", line6v "long_name" "mean equator radius", line6v "units" "meters",
          line6v "value" "6.3781366000E+06"] := by decide +kernel
    rw [e]
    exact ⟨(printHarmonic o).take 10, (printHarmonic o).drop 14, rfl⟩
  · have e : "    title                 : ".toList = line4 "title" ++ " ".toList := by decide +kernel
    have em : (if o.month ≤ 186 then "GRACE" else "GRACE-FO") =
        (if decide (186 < o.month) = true then "GRACE-FO" else "GRACE") := by
      by_cases h : o.month ≤ 186
      · rw [if_pos h, if_neg (by simpa using h)]
      · rw [if_neg h, if_pos (by simpa using h)]
    rw [e, em]
    simp only [printGlobal, line4v, List.mem_cons, true_or, or_true, List.append_assoc]
  · have e : "    summary               : ".toList = line4 "summary" ++ " ".toList := by decide +kernel
    rw [e]
    simp only [printGlobal, line4v, List.mem_cons, true_or, or_true]
  · have e : "    source                : All data from AOD1B ".toList =
        line4 "source" ++ " ".toList ++ "All data from AOD1B ".toList := by decide +kernel
    rw [e]
    simp only [printGlobal, line4v, List.mem_cons, true_or, or_true, List.append_assoc]
  · have e : "    product_version       : Release-".toList = line4 "product_version" ++ " ".toList ++ "Release-".toList := by
      decide +kernel
    rw [e]
    simp only [printGlobal, line4v, List.mem_cons, true_or, or_true, List.append_assoc]
  · have e : "    time_coverage_start   : ".toList = line4 "time_coverage_start" ++ " ".toList := by decide +kernel
    have e' : ['-'] = "-".toList := by decide
    rw [e, e']
    simp only [printGlobal, line4v, dashText, List.mem_cons, true_or, or_true, List.append_assoc]
  · have e : "    time_coverage_end     : ".toList = line4 "time_coverage_end" ++ " ".toList := by decide +kernel
    have e' : ['-'] = "-".toList := by decide
    rw [e, e']
    simp only [printGlobal, line4v, dashText, List.mem_cons, true_or, or_true, List.append_assoc]
  · have e : "    date_created          : ".toList = line4 "date_created" ++ " ".toList := by decide +kernel
    rw [e]
    simp only [printGlobal, line4v, List.mem_cons, true_or, or_true]
  · exact ⟨printVariables.take 13, printVariables.drop 17, by decide +kernel⟩
  · exact ⟨printVariables.take 17, printVariables.drop 21, by decide +kernel⟩
  · rfl
  · unfold shmHeader
    rw [List.getLast?_append_of_ne_nil]
    · decide +kernel
    · decide +kernel

end Verif.GraceText
