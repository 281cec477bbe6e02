import Verif.GraceText.Lemmas
import Verif.Dates.Props

/-!
# C91: reading Level-2 files, from the name and the text of the file
-/
namespace Verif.GraceText
open Verif.SLR Verif.Names Verif.Input Verif.Dates Verif.Time.Spec
open Verif.Time hiding isSpace
open Verif.GIA (Tok)

/-! ## Names -/

theorem isDDK_iff (n : L2Name) : isDDK n.parts = true ↔ "kfilter_DDK".toList <+: n.head.pfx := by
  unfold isDDK
  rw [List.isPrefixOf_iff_prefix]; rfl

/-- the product of a name -/
theorem product_of (n : L2Name) (dset : Name) (h : n.IsProduct dset) : dsetOf n.parts = some dset := by
  unfold dsetOf
  have hc : n.parts.prc = n.center := rfl
  have hp : n.parts.pfx = n.head.pfx := rfl
  rw [hc]
  rcases h with ⟨hs, rfl⟩ | ⟨hs, hd, he⟩
  · by_cases h1 : n.center = "JPLMSC".toList
    · rw [if_pos h1]
    · rw [if_neg h1, if_pos ((isDDK_iff n).2 (hs.resolve_left h1))]
  · have h1 : n.center ≠ "JPLMSC".toList := fun h => hs (Or.inl h)
    have h2 : ¬ isDDK n.parts = true := fun h => hs (Or.inr ((isDDK_iff n).1 h))
    rw [if_neg h1, if_neg h2, hp, he]
    have key : ∀ d ∈ Products, (match findall productRe d with | [g] => some (group g 1) | _ => none) = some d := by
      decide +kernel
    exact key dset hd

/-- the marker of the data lines -/
theorem marker_of (n : L2Name) (flag : Name) (h : n.IsMarker flag) : flagOf n.parts = flag := by
  unfold flagOf
  have hc : n.parts.prc = n.center := rfl
  have hx : n.parts.sfx = n.suffix := rfl
  rw [hc, hx]
  rcases h with ⟨h1, h2, rfl⟩ | ⟨h1, rfl⟩
  · rw [if_neg h1]
    by_cases hd : isDDK n.parts = true
    · rw [if_pos hd]
    · rw [if_neg hd, if_pos]
      exact h2.resolve_left fun h => hd ((isDDK_iff n).2 h)
  · by_cases hj : n.center = "JPLMSC".toList
    · rw [if_pos hj]
    · rw [if_neg hj, if_neg, if_neg]
      · intro h; exact h1 ⟨hj, Or.inr h⟩
      · intro h; exact h1 ⟨hj, Or.inl ((isDDK_iff n).1 h)⟩

/-- the center, as far as the pole tide is concerned -/
theorem center_of (n : L2Name) (c : Center) (h : n.IsCenter c) : centerOf n.parts = c := by
  unfold centerOf
  have hc : n.parts.prc = n.center := rfl
  rw [hc]
  rcases h with ⟨h, rfl⟩ | ⟨h, rfl⟩ | ⟨h, rfl⟩
  · rw [if_pos h]
  · have : n.center ∉ ["UTCSR", "JPLEM", "JPLMSC"].map String.toList := by
      intro h'; revert h h'; generalize n.center = x; intro h h'
      have : ∀ x ∈ ["EIGEN", "GFZOP"].map String.toList, x ∉ ["UTCSR", "JPLEM", "JPLMSC"].map String.toList := by decide
      exact this x h h'
    rw [if_neg this, if_pos h]
  · have h1 : ∀ x ∈ ["GRGS", "COSTG"].map String.toList, x ∉ ["UTCSR", "JPLEM", "JPLMSC"].map String.toList ∧
        x ∉ ["EIGEN", "GFZOP"].map String.toList := by decide
    rw [if_neg (h1 _ h).1, if_neg (h1 _ h).2]

/-- every name in order has a marker and a center -/
theorem marker_exists (n : L2Name) (h : n.Ok) :
    (∃ flag, n.IsMarker flag) ∧ ∃ c, n.IsCenter c := by
  constructor
  · by_cases hm : n.center ≠ "JPLMSC".toList ∧ ("kfilter_DDK".toList <+: n.head.pfx ∨ n.center = "COSTG".toList ∨
        n.suffix = ".gfc".toList)
    · exact ⟨_, Or.inl ⟨hm.1, hm.2, rfl⟩⟩
    · exact ⟨_, Or.inr ⟨hm, rfl⟩⟩
  · have key : ∀ x ∈ Centers, x ∈ ["UTCSR", "JPLEM", "JPLMSC"].map String.toList ∨ x ∈ ["EIGEN", "GFZOP"].map String.toList ∨
        x ∈ ["GRGS", "COSTG"].map String.toList := by decide
    rcases key _ h.center with h | h | h
    · exact ⟨_, Or.inl ⟨h, rfl⟩⟩
    · exact ⟨_, Or.inr (Or.inl ⟨h, rfl⟩)⟩
    · exact ⟨_, Or.inr (Or.inr ⟨h, rfl⟩)⟩

theorem marker_facts (n : L2Name) (flag : Name) (h : n.IsMarker flag) :
    ¬ flag <+: "GRDOTA".toList ∧ ¬ "GRDOTA".toList <+: flag := by
  rcases h with ⟨-, -, rfl⟩ | ⟨-, rfl⟩
  · refine ⟨?_, ?_⟩ <;> rw [← List.isPrefixOf_iff_prefix] <;> decide
  · refine ⟨?_, ?_⟩ <;> rw [← List.isPrefixOf_iff_prefix] <;> decide

/-! ## Dates -/

/-- the reader and `grace_date` compute the same mid-date from the name -/
theorem time_tdec (d : FileDates) : timeOf d = tdec d := by
  unfold timeOf tdec midDay endCyclic dpy
  cases calendarDays d.startYr <;> rfl

/-- C91: the mid-date is the decimal year of the middle of the days in the name (counted from day 1), the Julian dates are
those of the first and the last day -/
theorem file_dates (d : FileDates) (y1 m1 d1 y2 m2 d2 : ℤ) (hc : Covers d y1 m1 d1 y2 m2 d2) (hy : y2 = y1 ∨ y2 = y1 + 1)
    (h4 : y1 % 4000 ≠ 0) (hs1 : ¬ Skewed y1 1) (hs2 : ¬ Skewed y2 1) :
    timeOf d = y1 + (((dayNumber y1 m1 d1 + dayNumber y2 m2 d2 : ℤ) : ℚ) / 2 - dayNumber y1 1 1 + 1) / yearLen y1 ∧
    julianOf d.startYr d.startDay = 2400000.5 + dayNumber y1 m1 d1 ∧
    julianOf d.endYr d.endDay = 2400000.5 + dayNumber y2 m2 d2 := by
  have key : ∀ (y : ℤ) (k : ℤ), ¬ Skewed y 1 → julianOf y ((k - dayNumber y 1 1 + 1 : ℤ) : ℚ) = 2400000.5 + k := by
    intro y k hs
    unfold julianOf
    have e := mjd_spec y 1 (k - dayNumber y 1 1 + 1) 0 0 0 (by norm_num) (by norm_num)
    rw [if_neg hs] at e
    have hn : dayNumber y 1 (k - dayNumber y 1 1 + 1) = k := by
      have : dayNumber y 1 (k - dayNumber y 1 1 + 1) = dayNumber y 1 1 + (k - dayNumber y 1 1 + 1) - 1 := by
        unfold dayNumber; ring
      rw [this]; ring
    rw [hn] at e
    push_cast at e ⊢
    rw [e]; ring
  refine ⟨?_, ?_, ?_⟩
  · rw [time_tdec]; exact tdec_midpoint d y1 m1 d1 y2 m2 d2 hc hy h4
  · rw [hc.yr1, hc.day1]; exact key y1 _ hs1
  · rw [hc.yr2, hc.day2]; exact key y2 _ hs2

/-! ## Coefficients -/

/-- C91: a file whose lines say `xs` is read as the Level-2 reader of C13 reads `xs`, with the product, the release, the center
and the date of its name -/
theorem data_read (n : L2Name) (flag dset : Name) (hm : n.IsMarker flag) (c : Center) (hc : n.IsCenter c)
    (lines : List (List Char)) (xs : List (FileLine ℚ)) (hx : List.Forall₂ (Says flag) lines xs) (L M : ℕ) (pole : Bool) :
    readData n.parts dset L M pole lines =
      (readGrace (decide (digitsVal n.release = 4)) (decide (dset = "GSM".toList)) pole c (tdec n.dates) L M xs).toOption := by
  obtain ⟨f1, f2⟩ := marker_facts n flag hm
  unfold readData
  rw [marker_of n flag hm, mapM_says flag f1 f2 L M lines xs hx]
  simp only [readGrace_cut, center_of n c hc, time_tdec]
  rfl

/-- C91: reading a file by its name and its text.  The dates are those of the name and the coefficients those of the lines;
an exception is raised exactly if there is no header or the lines cannot be read -/
theorem file_read {Y : Type} (yaml : List Char → Option Y) (n : L2Name) (h : n.Ok) (flag dset : Name) (hm : n.IsMarker flag)
    (hd : n.IsProduct dset) (c : Center) (hc : n.IsCenter c) (text : List Char) (lines : List (List Char))
    (ht : LoveText.IsText text lines) (xs : List (FileLine ℚ)) (hx : List.Forall₂ (Says flag) lines xs) (L : ℕ)
    (MMAX : Option ℕ) (pole : Bool) (g : Grace Y) :
    readFile yaml n.text text L MMAX pole = some g ↔
      g.time = tdec n.dates ∧ g.start = julianOf n.dates.startYr n.dates.startDay ∧
      g.stop = julianOf n.dates.endYr n.dates.endDay ∧ headerOf yaml n.parts lines = some g.header ∧
      readGrace (decide (digitsVal n.release = 4)) (decide (dset = "GSM".toList)) pole c (tdec n.dates) L (MMAX.getD L) xs =
        .ok g.data := by
  have hdat := data_read n flag dset hm c hc lines xs hx L (MMAX.getD L) pole
  have hdates : datesOf n.parts = n.dates := rfl
  unfold readFile
  rw [parse_parts n h]
  simp only [product_of n dset hd, LoveText.splitlines_text text lines ht, Option.bind_some, hdat, hdates, time_tdec]
  generalize readGrace _ _ _ _ _ _ _ xs = r
  generalize headerOf yaml n.parts lines = hh
  cases hh with
  | none => simp
  | some hh =>
    cases r with
    | error e => simp [Except.toOption]
    | ok d =>
      simp only [Except.toOption, Option.some.injEq, Except.ok.injEq]
      constructor
      · rintro rfl; exact ⟨rfl, rfl, rfl, rfl, rfl⟩
      · rintro ⟨h1, h2, h3, h4, h5⟩
        obtain ⟨a1, a2, a3, a4, a5⟩ := g
        dsimp only at h1 h2 h3 h4 h5
        subst h1 h2 h3 h4 h5
        rfl

/-- C91: the coefficients of a file without drift rates (a release other than RL04, or another product than GSM), without pole
tide correction: the last line of a degree and order counts, others are zero, and C00 is 1 without a line -/
theorem file_entry {Y : Type} (yaml : List Char → Option Y) (n : L2Name) (h : n.Ok) (flag dset : Name) (hm : n.IsMarker flag)
    (hd : n.IsProduct dset) (text : List Char) (lines : List (List Char))
    (ht : LoveText.IsText text lines) (xs : List (FileLine ℚ)) (hx : List.Forall₂ (Says flag) lines xs) (L : ℕ)
    (MMAX : Option ℕ) (pole : Bool) (h4 : digitsVal n.release ≠ 4 ∨ dset ≠ "GSM".toList) (hpt : pole = false ∨ dset ≠ "GSM".toList)
    (g : Grace Y) (hg : readFile yaml n.text text L MMAX pole = some g) (l m : ℕ) (hl : l ≤ L) (hmm : m ≤ MMAX.getD L) :
    (g.data.clm (l, m), g.data.slm (l, m), g.data.eclm (l, m), g.data.eslm (l, m)) =
      (lastData xs l m).getD (if l = 0 ∧ m = 0 then 1 else 0, 0, 0, 0) := by
  obtain ⟨c, hc⟩ := (marker_exists n h).2
  obtain ⟨-, -, -, -, hr⟩ := (file_read yaml n h flag dset hm hd c hc text lines ht xs hx L MMAX pole g).1 hg
  obtain ⟨e1, e2, e3, e4⟩ := readGrace_entry _ _ _ _ _ _ _ _ _ hr l m hl hmm
  have n1 : ¬ ((decide (digitsVal n.release = 4) = true) ∧ (decide (dset = "GSM".toList) = true)) := by
    simp only [decide_eq_true_eq]; tauto
  have n2 : ¬ (((pole = true) ∧ (decide (dset = "GSM".toList) = true)) ∧ l = 2 ∧ m = 1) := by
    simp only [decide_eq_true_eq]
    rintro ⟨⟨rfl, hs⟩, -⟩
    rcases hpt with h | h
    · exact absurd h (by decide)
    · exact h hs
  rw [if_neg n1, if_neg n2] at e1 e2
  rw [e1, e2, e3, e4]
  cases lastData xs l m with
  | none => simp [default00]
  | some v => simp

/-- C91: when a file is readable: no drift rates outside of RL04 GSM files and of the truncation, and a truncation that includes
degree 2 and order 1 for the pole tide -/
theorem file_readable {Y : Type} (yaml : List Char → Option Y) (n : L2Name) (h : n.Ok) (flag dset : Name) (hm : n.IsMarker flag)
    (hd : n.IsProduct dset) (c : Center) (hc : n.IsCenter c) (text : List Char) (lines : List (List Char))
    (ht : LoveText.IsText text lines) (xs : List (FileLine ℚ)) (hx : List.Forall₂ (Says flag) lines xs) (L : ℕ)
    (MMAX : Option ℕ) (pole : Bool) :
    (∃ g, readFile yaml n.text text L MMAX pole = some g) ↔
      (∃ hh, headerOf yaml n.parts lines = some hh) ∧
      (∀ l m a b, FileLine.drift l m a b ∈ xs → digitsVal n.release = 4 ∧ dset = "GSM".toList ∧ l ≤ L ∧ m ≤ MMAX.getD L) ∧
      (pole = true → dset = "GSM".toList → c ≠ .other → 2 ≤ L ∧ 1 ≤ MMAX.getD L) := by
  have hr := readGrace_ok_iff (decide (digitsVal n.release = 4)) (decide (dset = "GSM".toList)) pole c (tdec n.dates) L
    (MMAX.getD L) xs
  simp only [Bool.and_eq_true, decide_eq_true_eq, and_imp, and_assoc] at hr
  rw [← hr]
  constructor
  · rintro ⟨g, hg⟩
    obtain ⟨-, -, -, a, b⟩ := (file_read yaml n h flag dset hm hd c hc text lines ht xs hx L MMAX pole g).1 hg
    exact ⟨⟨_, a⟩, _, b⟩
  · rintro ⟨⟨hh, a⟩, d, b⟩
    exact ⟨⟨_, _, _, hh, d⟩, (file_read yaml n h flag dset hm hd c hc text lines ht xs hx L MMAX pole _).2
      ⟨rfl, rfl, rfl, a, b⟩⟩

/-! ## Headers -/

/-- C91: which kind of header a file has (quotation marks aside): files ending with `.gfc` have parameters, files of GRACE from
release 6 on and of GRACE-FO have YAML, and the header of other files is kept line by line without the empty lines -/
theorem header_kind {Y : Type} (yaml : List Char → Option Y) (n : L2Name) (flag : Name) (hm : n.IsMarker flag)
    (lines : List (List Char)) (hq : ∀ x ∈ headLines flag lines, '"' ∉ x) :
    (n.suffix = ".gfc".toList → headerOf yaml n.parts lines = (gfcHeader (headLines flag lines)).map .gfc) ∧
    (n.suffix ≠ ".gfc".toList → (n.mission = "GRAC".toList ∧ 6 ≤ digitsVal n.release) ∨ n.mission = "GRFO".toList →
      headerOf yaml n.parts lines = (yaml (['\n'].intercalate (headLines flag lines))).map .yaml) ∧
    (n.suffix ≠ ".gfc".toList → ¬ ((n.mission = "GRAC".toList ∧ 6 ≤ digitsVal n.release) ∨ n.mission = "GRFO".toList) →
      headerOf yaml n.parts lines = some (.plain (((headLines flag lines).filter (· ≠ [])).map rstrip))) := by
  have hh := headOf_eq flag lines hq
  have hx : n.parts.sfx = n.suffix := rfl
  have hn : n.parts.n = n.mission := rfl
  have hr : n.parts.drl = n.release := rfl
  refine ⟨fun h1 => ?_, fun h1 h2 => ?_, fun h1 h2 => ?_⟩
  · unfold headerOf
    simp only [hx, hn, hr, h1, if_true, marker_of n flag hm, hh]
  · unfold headerOf
    simp only [hx, hn, hr, if_neg h1, if_pos h2, marker_of n flag hm, hh]
  · unfold headerOf
    simp only [hx, hn, hr, if_neg h1, if_neg h2, marker_of n flag hm, hh]

/-- a line with a parameter: the parameter, blanks, and its value -/
def Param (line key value : List Char) : Prop :=
  ∃ gap, line = key ++ gap ++ value ∧ key ≠ [] ∧ (∀ c ∈ key, isSpace c = false) ∧ gap ≠ [] ∧ (∀ c ∈ gap, isSpace c = true) ∧
    value ≠ [] ∧ ∀ c ∈ value.head?, isSpace c = false

theorem keyValue_param (line key value : List Char) (h : Param line key value) : keyValue line = some (key, value) := by
  obtain ⟨gap, rfl, hk, hk', hg, hg', hv, hv'⟩ := h
  have dropAll : ∀ (p : Char → Bool) (a b : List Char), (∀ c ∈ a, p c = true) → (∀ c ∈ b.head?, p c = false) →
      (a ++ b).dropWhile p = b ∧ (a ++ b).takeWhile p = a := by
    intro p a b ha hb
    induction a with
    | nil =>
      cases b with
      | nil => simp
      | cons c b => have := hb c (by simp); simp [this]
    | cons c a ih =>
      have hc := ha c (by simp)
      obtain ⟨i1, i2⟩ := ih fun x hx => ha x (by simp [hx])
      simp [hc, i1, i2]
  have h1 : (key ++ gap ++ value).dropWhile isSpace = key ++ gap ++ value := by
    refine (dropAll isSpace [] (key ++ gap ++ value) (by simp) ?_).1
    intro c hc
    cases key with
    | nil => exact absurd rfl hk
    | cons a b => simp at hc; subst hc; exact hk' a (by simp)
  have h2 := dropAll (fun c => !isSpace c) key (gap ++ value) (by simpa using hk') (by
    intro c hc
    cases gap with
    | nil => exact absurd rfl hg
    | cons a b => simp at hc; subst hc; simp [hg' a (by simp)])
  have h3 := dropAll isSpace gap value hg' hv'
  unfold keyValue
  simp only [h1]
  rw [List.append_assoc, h2.1, h2.2, h3.1, if_neg hv]

/-- C91: the parameters of a gfc file: each line that begins with the name of a parameter gives one, the last one counts -/
theorem gfc_header (head params : List (List Char)) (kvs : List (List Char × List Char))
    (hp : head.filter (fun x => parameters.any fun p => p.toList.isPrefixOf x) = params)
    (hk : List.Forall₂ (fun line kv => Param line kv.1 kv.2) params kvs) :
    ∃ d, gfcHeader head = some d ∧ ∀ k, d k = ((kvs.filter fun kv => kv.1 = k).getLast?).map Prod.snd := by
  have hmap : params.mapM keyValue = some kvs := by
    clear hp
    induction hk with
    | nil => rfl
    | cons h1 _ ih => rw [List.mapM_cons, keyValue_param _ _ _ h1, ih]; rfl
  unfold gfcHeader
  rw [hp, hmap]
  refine ⟨_, rfl, fun k => ?_⟩
  simp only
  clear hmap hk hp
  have : ∀ l : List (List Char × List Char), l.lookup k = ((l.filter fun kv => kv.1 = k).head?).map Prod.snd := by
    intro l
    induction l with
    | nil => rfl
    | cons x l ih =>
      obtain ⟨a, b⟩ := x
      by_cases h : a = k
      · subst h; simp [List.lookup]
      · have : (k == a) = false := by simpa using fun e => h e.symm
        simp [List.lookup, this, h, ih]
  rw [this, List.filter_reverse, List.head?_reverse]

/-! ## Exceptions -/

/-- C91: a name without dates, center or release is not read -/
theorem bad_name {Y : Type} (yaml : List Char → Option Y) (name : Name) (hn : '\n' ∉ name) (h : ¬ ∃ hd, HasDates name hd)
    (text : List Char) (L : ℕ) (MMAX : Option ℕ) (pole : Bool) : readFile yaml name text L MMAX pole = none := by
  have : findall parsePattern name = [] := by
    have := (findall_dated (parseTail ++ [.eos]) parseTail_end name hn).1
    rw [parsePattern_eq]
    exact this fun ⟨x, hx⟩ => h ⟨x, (dec_hasDates name hn x).1 hx⟩
  unfold readFile parseFile
  rw [this]
  rfl

/-- C91: a file of an unknown product (its name begins with something that does not contain a product) is not read -/
theorem bad_product {Y : Type} (yaml : List Char → Option Y) (n : L2Name) (h : n.Ok) (hs : ¬ n.Special) (hp : 'G' ∉ n.head.pfx)
    (text : List Char) (L : ℕ) (MMAX : Option ℕ) (pole : Bool) : readFile yaml n.text text L MMAX pole = none := by
  have hf : findall productRe n.head.pfx = [] := by
    refine findall_none _ _ fun k => ?_
    have hk : 'G' ∉ n.head.pfx.drop k := fun hm => hp (List.mem_of_mem_drop hm)
    by_contra hne
    obtain ⟨r, c, hm⟩ := (runs_ne_nil _ _).1 hne
    have hno : NoEnd productRe := by
      apply noEnd_oneOf
      intro e he
      obtain ⟨s, -, rfl⟩ := List.mem_map.1 he
      exact noEnd_lit _
    obtain ⟨u, hu, lu⟩ := (runs_lang productRe hno _ r).1 ⟨c, hm⟩
    simp only [productRe, Lang, lang_oneOf, List.mem_map] at lu
    obtain ⟨e, ⟨s, hs, rfl⟩, lu⟩ := lu
    rw [lang_lit] at lu
    subst lu
    apply hk
    rw [hu]
    have : 'G' ∈ s.toList := by
      have key : ∀ s ∈ ["GSM", "GAA", "GAB", "GAC", "GAD"], 'G' ∈ s.toList := by decide
      exact key s hs
    simp [this]
  have hd : dsetOf n.parts = none := by
    unfold dsetOf
    rw [if_neg (show ¬ n.parts.prc = _ from fun h => hs (Or.inl h)),
      if_neg (fun h => hs (Or.inr ((isDDK_iff n).1 h)))]
    rw [show n.parts.pfx = n.head.pfx from rfl, hf]
  unfold readFile
  rw [parse_parts n h]
  simp only [hd]

end Verif.GraceText
