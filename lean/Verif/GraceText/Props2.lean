import Verif.GraceText.Writer
import Verif.Names.Index

/-!
# C91: the dealiasing files that the toolkit writes, and reading them back
-/
namespace Verif.GraceText
open Verif.SLR Verif.Names Verif.Input Verif.Dates Verif.HarmIO Verif.SpatialIO
open Verif.Dealias (Job DateRow outName zpad)

/-! ## The name of the file -/

/-- years with four digits and days with at most three -/
structure FourDigits (r : DateRow) : Prop where
  y1 : 0 ≤ r.styr ∧ r.styr < 10000
  d1 : 0 ≤ r.stday ∧ r.stday < 1000
  y2 : 0 ≤ r.endyr ∧ r.endyr < 10000
  d2 : 0 ≤ r.endday ∧ r.endday < 1000

/-- the releases of the dealiasing products -/
def Releases : List Name := ["RL01", "RL02", "RL03", "RL04", "RL05", "RL06"].map String.toList

/-- the parts of the name of an output file -/
def nameOf (j : Job) (r : DateRow) : L2Name where
  head := ⟨j.dset, zpad 4 r.styr.toNat, zpad 3 r.stday.toNat, zpad 4 r.endyr.toNat, zpad 3 r.endday.toNat⟩
  mission := if r.mon ≤ 186 then "GRAC".toList else "GRFO".toList
  center := Dealias.centerOf j.proc j.drel
  kind := "BC01".toList
  release := j.drel.drop 2 ++ "00".toList
  more := []
  suffix := ".gz".toList

theorem nameOf_text (j : Job) (L : ℕ) (r : DateRow) (hf : j.form = .SHM) : outName j L r = (nameOf j r).text := by
  unfold outName
  rw [if_pos hf]
  unfold L2Name.text nameOf Head.text
  have e1 : "-".toList = ['-'] := by decide
  have e2 : "_".toList = ['_'] := by decide
  have e3 : "_BC01_".toList = ['_'] ++ "BC01".toList ++ ['_'] := by decide
  have e4 : "00.gz".toList = "00".toList ++ ".gz".toList := by decide
  rw [e1, e2, e3, e4]
  simp only [List.append_assoc, List.nil_append]

theorem center_cases (proc drel : Name) : Dealias.centerOf proc drel ∈ ["UTCSR", "JPLEM", "GFZOP", "EIGEN"].map String.toList := by
  unfold Dealias.centerOf
  by_cases h1 : proc = "CSR".toList
  · rw [if_pos h1]; simp
  · rw [if_neg h1]
    by_cases h2 : proc = "JPL".toList
    · rw [if_pos h2]; simp
    · rw [if_neg h2]
      by_cases h3 : drel = "RL06".toList
      · rw [if_pos h3]; simp
      · rw [if_neg h3]; simp

/-- C91: the names that the monthly mean program gives its files can be read back -/
theorem nameOf_ok (j : Job) (r : DateRow) (hd : j.dset ∈ Dealiasing) (hr : j.drel ∈ Releases) (h4 : FourDigits r) :
    (nameOf j r).Ok := by
  have hz : ∀ w n, 0 < w → n < 10 ^ w → DigitsN w (zpad w n) := fun w n h1 h2 => ⟨zpad_length w n h1 h2, zpad_digits w n⟩
  have hdl : ∀ w n, '\n' ∉ zpad w n := fun w n h => absurd (zpad_digits w n _ h) (by decide)
  have hset : '-' ∉ j.dset ∧ '\n' ∉ j.dset := by
    have key : ∀ d ∈ Dealiasing, '-' ∉ d ∧ '\n' ∉ d := by decide
    exact key _ hd
  have hrel : (j.drel.drop 2 ++ "00".toList ≠ [] ∧ ∀ c ∈ j.drel.drop 2 ++ "00".toList, c.isDigit = true) := by
    have key : ∀ d ∈ Releases, d.drop 2 ++ "00".toList ≠ [] ∧ ∀ c ∈ d.drop 2 ++ "00".toList, c.isDigit = true := by decide
    exact key _ hr
  have hcen : Dealias.centerOf j.proc j.drel ∈ Centers ∧ '\n' ∉ Dealias.centerOf j.proc j.drel := by
    have key : ∀ d ∈ ["UTCSR", "JPLEM", "GFZOP", "EIGEN"].map String.toList, d ∈ Centers ∧ '\n' ∉ d := by decide
    exact key _ (center_cases _ _)
  have hmis : '_' ∉ (nameOf j r).mission ∧ '\n' ∉ (nameOf j r).mission := by
    unfold nameOf
    dsimp only
    split <;> decide
  obtain ⟨a1, a2, a3, a4⟩ := h4
  refine ⟨⟨hz 4 _ (by decide) (by omega), hz 3 _ (by decide) (by omega), hz 4 _ (by decide) (by omega),
    hz 3 _ (by decide) (by omega)⟩, hset.1, hmis.1, hcen.1, by simp only [nameOf]; decide, hrel, by simp [nameOf], by simp [nameOf], ?_⟩
  have hdig : '\n' ∉ (nameOf j r).release := fun h => absurd (hrel.2 _ h) (by decide)
  simp only [L2Name.text, Head.text, List.mem_append, not_or]
  exact ⟨⟨⟨⟨⟨⟨⟨⟨hset.2, by decide⟩, hdl _ _⟩, hdl _ _⟩, by decide⟩, hdl _ _⟩, hdl _ _⟩, by decide⟩,
    ⟨⟨⟨⟨⟨⟨⟨⟨hmis.2, by decide⟩, hcen.2⟩, by decide⟩, by simp only [nameOf]; decide⟩, by decide⟩, hdig⟩, by simp [nameOf]⟩,
    by simp only [nameOf]; decide⟩⟩

/-- C91: what the reader takes from the name: product, center, release (the two digits of the release and two zeros: `DREL`
is 100 to 600, never 4), mission and dates -/
theorem nameOf_parts (j : Job) (r : DateRow) (hd : j.dset ∈ Dealiasing) (hr : j.drel ∈ Releases) (h4 : FourDigits r) :
    (nameOf j r).IsProduct j.dset ∧ (nameOf j r).IsMarker "GRCOF2".toList ∧ 6 ≤ digitsVal (nameOf j r).release ∧
    (nameOf j r).dates = ⟨r.styr, r.stday, r.endyr, r.endday⟩ := by
  have hcen : Dealias.centerOf j.proc j.drel ≠ "JPLMSC".toList ∧ Dealias.centerOf j.proc j.drel ≠ "COSTG".toList := by
    have key : ∀ d ∈ ["UTCSR", "JPLEM", "GFZOP", "EIGEN"].map String.toList, d ≠ "JPLMSC".toList ∧ d ≠ "COSTG".toList := by
      decide
    exact key _ (center_cases _ _)
  have hset : ¬ "kfilter_DDK".toList <+: j.dset ∧ j.dset ∈ Products := by
    have key : ∀ d ∈ Dealiasing, ¬ "kfilter_DDK".toList <+: d ∧ d ∈ Products := by decide
    exact key _ hd
  refine ⟨Or.inr ⟨?_, hset.2, rfl⟩, Or.inr ⟨?_, rfl⟩, ?_, ?_⟩
  · rintro (h | h)
    · exact hcen.1 h
    · exact hset.1 h
  · rintro ⟨-, h | h | h⟩
    · exact hset.1 h
    · exact hcen.2 h
    · exact absurd h (by simp only [nameOf]; decide)
  · have key : ∀ d ∈ Releases, 6 ≤ digitsVal (d.drop 2 ++ "00".toList) := by decide
    exact key _ hr
  · obtain ⟨a1, a2, a3, a4⟩ := h4
    simp only [L2Name.dates, nameOf, zpad_val]
    rw [show ((r.styr.toNat : ℕ) : ℤ) = r.styr by omega, show ((r.endyr.toNat : ℕ) : ℤ) = r.endyr by omega]
    have e1 : ((r.stday.toNat : ℕ) : ℚ) = (r.stday : ℚ) := by exact_mod_cast Int.toNat_of_nonneg a2.1
    have e2 : ((r.endday.toNat : ℕ) : ℚ) = (r.endday : ℚ) := by exact_mod_cast Int.toNat_of_nonneg a4.1
    rw [e1, e2]

/-! ## The text of the file -/

/-- C91: `to_SHM` raises for a product that is not a dealiasing product, and only then -/
theorem written_iff (o : Shm) (today : List Char) : (∃ text, toSHM o today = some text) ↔ o.product ∈ Dealiasing := by
  unfold toSHM
  constructor
  · rintro ⟨t, h⟩
    obtain ⟨s, hs, -⟩ := Option.map_eq_some_iff.1 h
    exact (summary_clean _ s hs).1
  · intro h
    obtain ⟨s, hs⟩ := Option.isSome_iff_exists.1 (summary_some _ h)
    exact ⟨_, by rw [hs]; rfl⟩

/-- C91: the files that the monthly mean program writes are read back: the header is the one that is written, the dates
are those of the month, the coefficients are those that were written rounded to thirteen significant digits, their errors
are zero, and what was not written is zero -/
theorem written_read {Y : Type} (yaml : List Char → Option Y) (j : Job) (r : DateRow) (hf : j.form = .SHM)
    (hd : j.dset ∈ Dealiasing) (hr : j.drel ∈ Releases) (h4 : FourDigits r) (hp : Clean j.proc) (L : ℕ)
    (clm slm : ℕ → ℕ → ℚ) (first last : ℕ × ℕ × ℕ) (today : List Char) (ht : Clean today) (summary : String)
    (hs : summaryOf j.dset = some summary) (y : Y)
    (hy : yaml (['\n'].intercalate (shmHeader (shmOf j L r.mon clm slm first last) summary today)) = some y)
    (text : List Char) (htext : toSHM (shmOf j L r.mon clm slm first last) today = some text)
    (L' : ℕ) (MMAX : Option ℕ) (pole : Bool) :
    ∃ g, readFile yaml (outName j L r) text L' MMAX pole = some g ∧ g.header = .yaml y ∧
      g.time = tdec ⟨r.styr, r.stday, r.endyr, r.endday⟩ ∧ g.start = julianOf r.styr r.stday ∧
      g.stop = julianOf r.endyr r.endday ∧
      ∀ l m, l ≤ L' → m ≤ MMAX.getD L' →
        (m ≤ l ∧ l ≤ L → RoundedSig 12 (clm l m) (g.data.clm (l, m)) ∧ RoundedSig 12 (slm l m) (g.data.slm (l, m)) ∧
          g.data.eclm (l, m) = 0 ∧ g.data.eslm (l, m) = 0) ∧
        (¬ (m ≤ l ∧ l ≤ L) → g.data.clm (l, m) = 0 ∧ g.data.slm (l, m) = 0 ∧ g.data.eclm (l, m) = 0 ∧
          g.data.eslm (l, m) = 0) := by
  generalize ho : shmOf j L r.mon clm slm first last = o at *
  have hzd : ∀ d : ℕ × ℕ × ℕ, CleanDate (zpad 4 d.1, zpad 2 d.2.1, zpad 2 d.2.2) ∧
      ∀ c ∈ dateText (zpad 4 d.1, zpad 2 d.2.1, zpad 2 d.2.2), isSpace c = false := by
    intro d
    refine ⟨⟨clean_digits _ (zpad_digits _ _), clean_digits _ (zpad_digits _ _), clean_digits _ (zpad_digits _ _)⟩, ?_⟩
    have hdig : ∀ c : Char, c.isDigit = true → isSpace c = false := by
      intro c hc
      cases hb : isSpace c with
      | false => rfl
      | true =>
        simp only [isSpace, Bool.or_eq_true, decide_eq_true_eq] at hb
        rcases hb with ((hb | hb) | hb) | hb <;> subst hb <;> revert hc <;> decide
    intro c hc
    simp only [dateText, List.mem_append] at hc
    rcases hc with ((h | h) | h) | h
    · exact hdig c (zpad_digits _ _ c h)
    · exact hdig c (zpad_digits _ _ c h)
    · exact hdig c (zpad_digits _ _ c h)
    · revert c; decide
  have hst : CleanDate o.startTime ∧ ∀ c ∈ dateText o.startTime, isSpace c = false := by rw [← ho]; exact hzd first
  have hen : CleanDate o.endTime ∧ ∀ c ∈ dateText o.endTime, isSpace c = false := by rw [← ho]; exact hzd last
  have hprod : o.product = j.dset := by rw [← ho]; rfl
  have hpc : Clean o.product := by
    rw [hprod]
    have key : ∀ d ∈ Dealiasing, Clean d := by decide
    exact key _ hd
  have hrc : Clean o.release := by
    rw [← ho]
    have key : ∀ d ∈ Releases, Clean d := by decide
    exact key _ hr
  have hcc : Clean o.center := by rw [← ho]; exact hp
  have hhead := shmHeader_ok o summary today (summary_clean _ _ hs).2 hpc hcc hrc ht hst.1 hen.1
  have hsays : List.Forall₂ (Says "GRCOF2".toList) (shmHeader o summary today ++ shmData o)
      (List.replicate (shmHeader o summary today).length .other ++ shmSays o) := by
    refine List.rel_append ?_ (shmData_says o hst.2 hen.2)
    generalize shmHeader o summary today = hs at hhead
    induction hs with
    | nil => exact .nil
    | cons x hs ih => exact .cons (headLine_says x (hhead x (by simp))) (ih fun y hy => hhead y (by simp [hy]))
  have hdataline : ∀ x ∈ shmData o, ∃ l m, x = dataLine o l m := by
    intro x hx
    simp only [shmData, List.mem_flatMap, List.mem_map] at hx
    obtain ⟨m, -, l, -, rfl⟩ := hx
    exact ⟨l, m, rfl⟩
  have hIs : LoveText.IsText text (shmHeader o summary today ++ shmData o) := by
    refine ⟨?_, Or.inl ?_⟩
    · intro x hx c hc
      rcases List.mem_append.1 hx with h | h
      · exact ((hhead x h).1 c hc).1
      · obtain ⟨l, m, rfl⟩ := hdataline x h
        exact (dataLine_clean o hst.1 hen.1 l m c hc).1
    · unfold toSHM at htext
      rw [hprod, hs] at htext
      simp only [Option.map_some, Option.some.injEq] at htext
      exact htext.symm
  have hlines : headLines "GRCOF2".toList (shmHeader o summary today ++ shmData o) = shmHeader o summary today := by
    unfold headLines
    rw [List.filter_append]
    have e1 : (shmHeader o summary today).filter (fun x => decide (¬ "GRCOF2".toList <+: x ∧ ¬ "GRDOTA".toList <+: x)) =
        shmHeader o summary today := by
      rw [List.filter_eq_self]
      intro x hx
      have key : ∀ w : List Char, ¬ ('G' :: w) <+: x := by
        rintro w ⟨t, rfl⟩
        exact (hhead _ hx).2 (by simp)
      exact decide_eq_true ⟨key "RCOF2".toList, key "RDOTA".toList⟩
    have e2 : (shmData o).filter (fun x => decide (¬ "GRCOF2".toList <+: x ∧ ¬ "GRDOTA".toList <+: x)) = [] := by
      rw [List.filter_eq_nil_iff]
      intro x hx
      obtain ⟨l, m, rfl⟩ := hdataline x hx
      have : "GRCOF2".toList <+: dataLine o l m := by
        unfold dataLine
        rw [intercalate_cons]
        exact ⟨_, rfl⟩
      simp only [decide_eq_true_eq, not_and]
      exact fun h => absurd this h
    rw [e1, e2, List.append_nil]
  have hok := nameOf_ok j r hd hr h4
  obtain ⟨hip, him, hdr, hdates⟩ := nameOf_parts j r hd hr h4
  have hq : ∀ x ∈ headLines "GRCOF2".toList (shmHeader o summary today ++ shmData o), '"' ∉ x := by
    rw [hlines]
    intro x hx hc
    exact ((hhead x hx).1 _ hc).2 rfl
  have hhdr : headerOf yaml (nameOf j r).parts (shmHeader o summary today ++ shmData o) = some (.yaml y) := by
    have hmis : ((nameOf j r).mission = "GRAC".toList ∧ 6 ≤ digitsVal (nameOf j r).release) ∨
        (nameOf j r).mission = "GRFO".toList := by
      by_cases hm : r.mon ≤ 186
      · exact Or.inl ⟨if_pos hm, hdr⟩
      · exact Or.inr (if_neg hm)
    have := (header_kind yaml (nameOf j r) _ him _ hq).2.1 (by simp only [nameOf]; decide) hmis
    rw [this, hlines, hy]; rfl
  have hnot : j.dset ≠ "GSM".toList := by
    have key : ∀ d ∈ Dealiasing, d ≠ "GSM".toList := by decide
    exact key _ hd
  have hnod : ∀ l m a b, FileLine.drift l m a b ∉
      List.replicate (shmHeader o summary today).length FileLine.other ++ shmSays o := by
    intro l m a b hx
    rcases List.mem_append.1 hx with h | h
    · exact absurd (List.eq_of_mem_replicate h) (by simp)
    · obtain ⟨_, _, _, _, _, h⟩ := (mem_shmSays o _).1 h
      cases h
  obtain ⟨c, hc⟩ := (marker_exists _ hok).2
  rw [nameOf_text j L r hf]
  obtain ⟨g, hg⟩ := (file_readable yaml (nameOf j r) hok _ j.dset him hip c hc text _ hIs _ hsays L' MMAX pole).2
    ⟨⟨_, hhdr⟩, fun l m a b hx => absurd hx (hnod l m a b), fun _ h => absurd h hnot⟩
  obtain ⟨t1, t2, t3, t4, -⟩ := (file_read yaml (nameOf j r) hok _ j.dset him hip c hc text _ hIs _ hsays L' MMAX pole g).1 hg
  rw [hdates] at t1 t2 t3
  rw [hhdr] at t4
  refine ⟨g, hg, (Option.some.inj t4).symm, t1, t2, t3, fun l m hl hm => ?_⟩
  have he := file_entry yaml (nameOf j r) hok _ j.dset him hip text _ hIs _ hsays L' MMAX pole (Or.inr hnot) (Or.inr hnot) g hg
    l m hl hm
  rw [lastData_shm] at he
  have ecl : o.clm = clm := by rw [← ho]; rfl
  have esl : o.slm = slm := by rw [← ho]; rfl
  have elm : o.lmax = L ∧ o.mmax = L := by rw [← ho]; exact ⟨rfl, rfl⟩
  rw [ecl, esl, elm.1, elm.2] at he
  constructor
  · intro hlm
    rw [if_pos ⟨hlm.1, hlm.2, by omega⟩] at he
    simp only [Option.getD_some, Prod.mk.injEq] at he
    rw [he.1, he.2.1, he.2.2.1, he.2.2.2]
    exact ⟨roundSig_rounded _ _, roundSig_rounded _ _, rfl, rfl⟩
  · intro hlm
    have h0 : ¬ (l = 0 ∧ m = 0) := by rintro ⟨rfl, rfl⟩; exact hlm ⟨by omega, by omega⟩
    rw [if_neg (by rintro ⟨a, b, -⟩; exact hlm ⟨a, b⟩), if_neg h0] at he
    simp only [Option.getD_none, Prod.mk.injEq] at he
    exact he

/-! ## The index -/

theorem noEnd_indexRe (dset : Name) : NoEnd (indexRe dset) := by
  unfold indexRe
  rw [noEnd_cat]
  simp only [List.forall_mem_cons]
  exact ⟨noEnd_lit _, trivial, noEnd_lit _, by simp⟩

/-- C91: the index lists the names of the directory that begin with the product and contain `.gz` behind it, each once and in
order -/
theorem index_lists (dset : Name) (dir : List Name) (hn : ∀ f ∈ dir, '\n' ∉ f) :
    (shmIndex dset dir).Pairwise (fun a b => a ≤ b) ∧ (dir.Nodup → (shmIndex dset dir).Nodup) ∧
    ∀ f, f ∈ shmIndex dset dir ↔ f ∈ dir ∧ ∃ a b, f = dset ++ "-2".toList ++ a ++ ".gz".toList ++ b := by
  refine ⟨List.pairwise_insertionSort _ _, fun h => (sortNames_perm _).nodup_iff.2 (h.filter _), fun f => ?_⟩
  unfold shmIndex
  rw [(sortNames_perm _).mem_iff, List.mem_filter, accepts_prefix _ (noEnd_indexRe dset)]
  refine and_congr_right fun hf => ?_
  simp only [indexRe, lang_cat_cons, lang_cat_nil, lang_lit, Lang]
  constructor
  · rintro ⟨u, r, rfl, v, w, rfl, rfl, a, t, rfl, -, g, z, rfl, rfl, rfl⟩
    exact ⟨a, r, by simp⟩
  · rintro ⟨a, b, rfl⟩
    refine ⟨dset ++ "-2".toList ++ a ++ ".gz".toList, b, rfl, _, a ++ ".gz".toList, by simp, rfl, a, _, rfl, ?_, ".gz".toList, [],
      by simp, rfl, rfl⟩
    intro c hc
    have : c ≠ '\n' := by
      rintro rfl
      exact hn _ hf (by simp [hc])
    simpa [anyChar] using this

end Verif.GraceText
