import Verif.HarmIO.IndexProps

/-!
# C85: theorems on series of spherical harmonics in index files
-/
set_option linter.unusedSectionVars false
namespace Verif.HarmIO.Data
open Verif.Harmonics
open Verif.SpatialIO
open Verif.Time (adjustMonths calendarToGrace)
variable {K : Type} [_root_.Field K]

/-- an order that sorts increasing times is the given order -/
theorem argsort_increasing (ts : List ℚ) (p : List ℕ) (hs : ts.Pairwise (· < ·)) (hp : IsArgsort ts p) :
    p = List.range ts.length := by
  obtain ⟨q1, q2⟩ := hp
  have hmem : ∀ i ∈ p, i < ts.length := fun i hi => List.mem_range.1 (q1.mem_iff.1 hi)
  have hnd : p.Nodup := q1.nodup_iff.2 List.nodup_range
  have hlt : p.Pairwise (· < ·) := by
    refine (q2.and hnd).imp_of_mem ?_
    rintro i j hi hj ⟨h1, h2⟩
    by_contra hc
    have hji : j < i := by omega
    have a := hmem i hi
    have b := hmem j hj
    have := List.pairwise_iff_getElem.1 hs j i b a hji
    simp only [List.getD_eq_getElem?_getD, List.getElem?_eq_getElem a, List.getElem?_eq_getElem b, Option.getD_some] at h1
    linarith
  exact q1.eq_of_pairwise' (r := (· < ·)) hlt List.pairwise_lt_range

theorem map_getElem {α β : Type} (xs : List α) (ys : List β) (f : α → β) (hl : xs.length = ys.length)
    (h : ∀ (i : ℕ) x, xs[i]? = some x → ys[i]? = some (f x)) : xs.map f = ys := by
  apply List.ext_getElem?
  intro i
  rw [List.getElem?_map]
  cases hx : xs[i]? with
  | none =>
    rw [List.getElem?_eq_none_iff] at hx
    symm
    rw [Option.map_none, List.getElem?_eq_none_iff]
    omega
  | some x => rw [Option.map_some, h i x hx]

theorem time_get (h : Harm K) (n i : ℕ) (hnt : h.nt = some n) (hwf : h.WF) (hi : i < n) :
    h.time[i]? = some (h.time.getD i 0) ∧ h.month[i]? = some (h.month.getD i 0) := by
  obtain ⟨w1, w2⟩ := hwf
  rw [hnt] at w1 w2
  simp only [Option.getD_some] at w1 w2
  constructor
  · simp [w1, hi]
  · simp [w2, hi]

/-- a series written to an index of netCDF4 or HDF5 files and read back is the series of the dates for which there are file
names, sorted by time: date `t` of the series is date `p t` of the object.  Other files are not touched. -/
theorem index_round_trip (hdf5 : Bool) (w : WOpts) (hu : Usual w) (hd : w.date = true) (hc : w.clobber = true) (h : Harm K)
    (n : ℕ) (hnt : h.nt = some n) (hwf : h.WF) (hm : h.mmax ≤ h.lmax) (files : List Path) (hne : files ≠ [])
    (hk : files.length ≤ n) (hnd : files.Nodup) (hv : ∀ f ∈ files, Valid f) (home cwd : Path) (fs : Path → Option (File K)) :
    ∃ fs' txt, toIndex (some (dataWriter hdf5 w)) home h files fs = .ok (fs', txt) ∧ (∀ f, f ∉ files → fs' f = fs f) ∧
      ∀ p, IsArgsort (h.time.take files.length) p →
        ∃ r, fromIndex (some dataReader) home cwd fs' txt p = .ok r ∧ r.lmax = h.lmax ∧ r.mmax = h.mmax ∧
          r.nt = some files.length ∧ r.time.Pairwise (· ≤ ·) ∧
          (∀ t i, p[t]? = some i → r.time.getD t 0 = h.time.getD i 0 ∧
            (∀ l m, l ≤ h.lmax → m ≤ h.mmax → r.clm l m t = (if m ≤ l then h.clm l m i else 0) ∧
              r.slm l m t = (if m ≤ l then h.slm l m i else 0)) ∧
            ((h.month.take files.length).Nodup → r.month.getD t 0 = h.month.getD i 0)) ∧
          ((h.time.take files.length).Pairwise (· < ·) → p = List.range files.length) := by
  obtain ⟨fs', txt, objs, e1, e2, e3, e4, e5⟩ := index_files (dataWriter hdf5 w) dataReader home cwd h n hnt hwf
    (fun i o => SameCoefs (dateField h i) o 1 ∧ o.time = [h.time.getD i 0] ∧ o.month = [h.month.getD i 0])
    (by
      intro i hi old
      obtain ⟨o', file, out, k1, _, k2, k3, k4, k5, k6, k7, k8⟩ := dataset_round_trip hdf5 w hu hd old ⟨dateField h i, []⟩ hm
        ⟨rfl, rfl⟩ (Or.inl hc)
      refine ⟨file, out.h, ?_, ?_, ?_, k3, k4, k8 (by simp [dateField])⟩
      · unfold dataWriter; rw [k1]; rfl
      · unfold dataReader; rw [k2]; rfl
      · rw [k6]; rfl)
    files hk hnd hv fs
  refine ⟨fs', txt, e1, e2, ?_⟩
  intro p hp
  have hlen : h.time.length = n ∧ h.month.length = n := by
    obtain ⟨w1, w2⟩ := hwf
    rw [hnt] at w1 w2
    exact ⟨w1, w2⟩
  have hlt : ∀ i o, objs[i]? = some o → i < files.length := by
    intro i o ho
    rw [← e3]
    exact (List.getElem?_eq_some_iff.1 ho).1
  have ht : objs.map (fun o => o.time.headD 0) = h.time.take files.length := by
    apply map_getElem
    · simp [e3, hlen.1, hk]
    · intro i o ho
      have hi := hlt i o ho
      rw [List.getElem?_take_of_lt hi, (time_get h n i hnt hwf (by omega)).1, (e4 i o ho).2.2.1]
      rfl
  have hg : objs.map (fun o => o.month.headD 0) = h.month.take files.length := by
    apply map_getElem
    · simp [e3, hlen.2, hk]
    · intro i o ho
      have hi := hlt i o ho
      rw [List.getElem?_take_of_lt hi, (time_get h n i hnt hwf (by omega)).2, (e4 i o ho).2.2.2]
      rfl
  have hobj : objs ≠ [] := by
    intro h0
    rw [h0] at e3
    exact hne (List.length_eq_zero_iff.1 e3.symm)
  obtain ⟨r, r1, r2, r3, r4, r5, r6, r7, r8⟩ := fromList_spec objs hobj p (by rw [ht]; exact hp)
  have hall : ∀ o ∈ objs, o.lmax = h.lmax ∧ o.mmax = h.mmax := by
    intro o ho
    obtain ⟨i, hi⟩ := List.mem_iff_getElem?.1 ho
    exact ⟨(e4 i o hi).2.1.1, (e4 i o hi).2.1.2.1⟩
  have hl : r.lmax = h.lmax := by
    obtain ⟨o, ho, e⟩ := r3
    rw [e, (hall o ho).1]
  have hmm : r.mmax = h.mmax := by
    obtain ⟨o, ho, e⟩ := r4
    rw [e, (hall o ho).2]
  refine ⟨r, ?_, hl, hmm, by rw [r2, e3], r6, ?_, ?_⟩
  · rw [e5, r1]; rfl
  · intro t i hti
    obtain ⟨o, ho, q1, q2, q3⟩ := r8 t i hti
    obtain ⟨_, hs, s1, s2⟩ := e4 i o ho
    refine ⟨by rw [q1, s1]; rfl, ?_, ?_⟩
    · intro l m h1 h2
      obtain ⟨a1, a2⟩ := q2 l m (by omega) (by omega)
      obtain ⟨b1, b2⟩ := hs.2.2 l m 0 h1 h2 (by omega)
      rw [a1, a2, b1, b2]
      exact ⟨rfl, rfl⟩
    · intro hn
      rw [q3 (by rw [hg]; exact hn), s2]
      rfl
  · intro hs
    have := argsort_increasing _ p hs hp
    rw [this]
    congr 1
    simp [hlen.1, hk]

/-- the same with text files: coefficients are rounded to thirteen digits, times to four decimals, the order and the
months are those of the rounded times -/
theorem index_ascii (h : Harm ℚ) (n : ℕ) (hnt : h.nt = some n) (hwf : h.WF) (hm : h.mmax ≤ h.lmax) (files : List Path)
    (hne : files ≠ []) (hk : files.length ≤ n) (hnd : files.Nodup) (hv : ∀ f ∈ files, Valid f) (home cwd : Path)
    (fs : Path → Option (List (List Char))) :
    ∃ fs' txt, toIndex (some asciiWriter) home h files fs = .ok (fs', txt) ∧ (∀ f, f ∉ files → fs' f = fs f) ∧
      ∀ p, IsArgsort ((h.time.take files.length).map (roundTo 4)) p →
        ∃ r, fromIndex (some asciiReader) home cwd fs' txt p = .ok r ∧ r.lmax = h.lmax ∧ r.mmax = h.mmax ∧
          r.nt = some files.length ∧ r.time.Pairwise (· ≤ ·) ∧
          (∀ t i, p[t]? = some i → r.time.getD t 0 = roundTo 4 (h.time.getD i 0) ∧
            (∀ l m, l ≤ h.lmax → m ≤ h.mmax → r.clm l m t = (if m ≤ l then roundSig 12 (h.clm l m i) else 0) ∧
              r.slm l m t = (if m ≤ l then roundSig 12 (h.slm l m i) else 0)) ∧
            (((h.time.take files.length).map fun t => calendarToGrace (roundTo 4 t)).Nodup →
              r.month.getD t 0 = calendarToGrace (roundTo 4 (h.time.getD i 0)))) := by
  obtain ⟨fs', txt, objs, e1, e2, e3, e4, e5⟩ := index_files asciiWriter asciiReader home cwd h n hnt hwf
    (fun i o => o.lmax = h.lmax ∧ o.mmax = h.mmax ∧
      (∀ l m, l ≤ h.lmax → m ≤ h.mmax → o.clm l m 0 = (if m ≤ l then roundSig 12 (h.clm l m i) else 0) ∧
        o.slm l m 0 = (if m ≤ l then roundSig 12 (h.slm l m i) else 0)) ∧
      o.time = [roundTo 4 (h.time.getD i 0)] ∧ o.month = [calendarToGrace (roundTo 4 (h.time.getD i 0))])
    (by
      intro i hi old
      obtain ⟨file, o', k1, k2, k3, k4, k5, k6, k7, k8⟩ := ascii_read (toField (dateField h i)) true
        (by intro l m _; simp [toField]) hm (by intro _; simp [toField, dateField])
      have hdate : dateOf (toField (dateField h i)) true = some (h.time.getD i 0) := rfl
      rw [hdate] at k7
      rw [k7] at k8
      refine ⟨file, ofField o', ?_, ?_, rfl, k3, k4, ?_, ?_, ?_⟩
      · unfold asciiWriter; rw [k1]; rfl
      · unfold asciiReader; rw [k2]; rfl
      · intro l m h1 h2
        by_cases hlm : m ≤ l
        · obtain ⟨c1, c2⟩ := k5 l m ⟨hlm, h1, h2⟩
          rw [if_pos hlm, if_pos hlm]
          simp only [ofField, c1, c2, toField, Option.map_some, Option.getD_some, dateField]
          exact ⟨trivial, trivial⟩
        · obtain ⟨c1, c2⟩ := k6 l m (fun hin => hlm hin.1)
          rw [if_neg hlm, if_neg hlm]
          simp only [ofField, c1, c2, Option.getD_some]
          exact ⟨trivial, trivial⟩
      · simp only [ofField, k7]; rfl
      · simp only [ofField, k8]; rfl)
    files hk hnd hv fs
  refine ⟨fs', txt, e1, e2, ?_⟩
  intro p hp
  have hlen : h.time.length = n ∧ h.month.length = n := by
    obtain ⟨w1, w2⟩ := hwf
    rw [hnt] at w1 w2
    exact ⟨w1, w2⟩
  have hlt : ∀ i o, objs[i]? = some o → i < files.length := by
    intro i o ho
    rw [← e3]
    exact (List.getElem?_eq_some_iff.1 ho).1
  have ht : objs.map (fun o => o.time.headD 0) = (h.time.take files.length).map (roundTo 4) := by
    apply map_getElem
    · simp [e3, hlen.1, hk]
    · intro i o ho
      have hi := hlt i o ho
      rw [List.getElem?_map, List.getElem?_take_of_lt hi, (time_get h n i hnt hwf (by omega)).1, (e4 i o ho).2.2.2.2.1]
      rfl
  have hg : objs.map (fun o => o.month.headD 0) = (h.time.take files.length).map fun t => calendarToGrace (roundTo 4 t) := by
    apply map_getElem
    · simp [e3, hlen.1, hk]
    · intro i o ho
      have hi := hlt i o ho
      rw [List.getElem?_map, List.getElem?_take_of_lt hi, (time_get h n i hnt hwf (by omega)).1, (e4 i o ho).2.2.2.2.2]
      rfl
  have hobj : objs ≠ [] := by
    intro h0
    rw [h0] at e3
    exact hne (List.length_eq_zero_iff.1 e3.symm)
  obtain ⟨r, r1, r2, r3, r4, r5, r6, r7, r8⟩ := fromList_spec objs hobj p (by rw [ht]; exact hp)
  have hall : ∀ o ∈ objs, o.lmax = h.lmax ∧ o.mmax = h.mmax := by
    intro o ho
    obtain ⟨i, hi⟩ := List.mem_iff_getElem?.1 ho
    exact ⟨(e4 i o hi).2.1, (e4 i o hi).2.2.1⟩
  have hl : r.lmax = h.lmax := by
    obtain ⟨o, ho, e⟩ := r3
    rw [e, (hall o ho).1]
  have hmm : r.mmax = h.mmax := by
    obtain ⟨o, ho, e⟩ := r4
    rw [e, (hall o ho).2]
  refine ⟨r, by rw [e5, r1]; rfl, hl, hmm, by rw [r2, e3], r6, ?_⟩
  intro t i hti
  obtain ⟨o, ho, q1, q2, q3⟩ := r8 t i hti
  obtain ⟨_, _, _, hs, s1, s2⟩ := e4 i o ho
  refine ⟨by rw [q1, s1]; rfl, ?_, ?_⟩
  · intro l m h1 h2
    obtain ⟨a1, a2⟩ := q2 l m (by omega) (by omega)
    rw [a1, a2]
    exact hs l m h1 h2
  · intro hn
    rw [q3 (by rw [hg]; exact hn), s2]
    rfl

/-- more file names than dates: writing fails -/
theorem index_too_many {C : Type} (wr : Option (Harm K → Option C → Except Err C)) (home : Path) (h : Harm K) (n : ℕ)
    (hnt : h.nt = some n) (files : List Path) (hk : n < files.length) (fs : Path → Option C) (r : (Path → Option C) × List Char) :
    toIndex wr home h files fs ≠ .ok r := by
  have key : ∀ (files : List Path) (k : ℕ) (st : (Path → Option C) × List Char), n < k + files.length → k ≤ n →
      ∀ r, (files.zipIdx k).foldlM (writeEntry wr home h) st ≠ .ok r := by
    intro files
    induction files with
    | nil => intro k st h1 h2; simp at h1; omega
    | cons f rest ih =>
      intro k st h1 h2 r hr
      rw [List.zipIdx_cons, List.foldlM_cons] at hr
      obtain ⟨st', a1, a2⟩ := bind_ok hr
      by_cases hkn : k < n
      · exact ih (k + 1) st' (by simp only [List.length_cons] at h1; omega) (by omega) r a2
      · have : index h k = .error .indexError := index_stop h n k hnt (by omega)
        unfold writeEntry at a1
        rw [this] at a1
        simp [liftErr, bind, Except.bind] at a1
  exact key files 0 (fs, []) (by omega) (by omega) r

/-- a format that is not known: no file is written, and nothing can be read -/
theorem index_unknown_format {C : Type} (home cwd : Path) (h : Harm K) (n : ℕ) (hnt : h.nt = some n) (hwf : h.WF)
    (files : List Path) (hk : files.length ≤ n) (fs : Path → Option C) :
    toIndex none home h files fs = .ok (fs, indexText home files) ∧
      ∀ fs' (txt : List Char) p, fromIndex (none : Option (C → Except Err (Harm K))) home cwd fs' txt p = .error .valueError := by
  constructor
  · have key : ∀ (files : List Path) (k : ℕ) (txt : List Char), k + files.length ≤ n →
        (files.zipIdx k).foldlM (writeEntry (none : Option (Harm K → Option C → Except Err C)) home h) (fs, txt) =
          .ok (fs, txt ++ indexText home files) := by
      intro files
      induction files with
      | nil => intro k txt _; simp [indexText, pure, Except.pure]
      | cons f rest ih =>
        intro k txt hk
        rw [List.length_cons] at hk
        rw [List.zipIdx_cons, List.foldlM_cons]
        have : writeEntry (none : Option (Harm K → Option C → Except Err C)) home h (fs, txt) (f, k) =
            .ok (fs, txt ++ compress home f ++ ['\n']) := by
          unfold writeEntry
          rw [index_ok h n k hnt hwf (by omega)]
          rfl
        rw [this]
        simp only [bind, Except.bind]
        rw [ih (k + 1) _ (by omega)]
        simp [indexText]
    have := key files 0 [] (by omega)
    rwa [List.nil_append] at this
  · intro fs' txt p
    rfl

/-- lines that are empty or begin with `#` or `%` do not matter -/
theorem index_comments {C : Type} (rd : Option (C → Except Err (Harm K))) (home cwd : Path) (fs : Path → Option C)
    (lines : List (List Char)) (hb : ∀ l ∈ lines, ∀ x ∈ l, isBreak x = false) (p : List ℕ) :
    fromIndex rd home cwd fs (lines.flatMap fun l => l ++ ['\n']) p =
      fromIndex rd home cwd fs ((lines.filter fun l => ¬ (l = [] ∨ l.head? = some '#' ∨ l.head? = some '%')).flatMap
        fun l => l ++ ['\n']) p := by
  have key : ∀ ls : List (List Char), (∀ l ∈ ls, ∀ x ∈ l, isBreak x = false) →
      splitLines (ls.flatMap fun l => l ++ ['\n']) = ls := by
    intro ls
    induction ls with
    | nil => intro _; rfl
    | cons l t ih =>
      intro hb
      have : ((l :: t).flatMap fun l => l ++ ['\n']) = l ++ '\n' :: t.flatMap fun l => l ++ ['\n'] := by simp
      rw [this, splitLines_line _ _ (hb l (by simp)), ih fun x hx => hb x (by simp [hx])]
  unfold fromIndex readEntries
  rw [key lines hb, key _ (fun l hl => hb l (List.mem_of_mem_filter hl)), List.filter_filter]
  have : (lines.filter keepLine) = lines.filter fun a => keepLine a &&
      decide (¬ (a = [] ∨ a.head? = some '#' ∨ a.head? = some '%')) := by
    apply List.filter_congr
    intro a _
    unfold keepLine
    by_cases h1 : a = [] <;> by_cases h2 : a.head? = some '#' <;> by_cases h3 : a.head? = some '%' <;> simp [h1, h2, h3]
  rw [← this]

/-! ## Examples -/

def exFiles : List Path := [["home".toList, "a".toList, "x1.nc".toList], ["data".toList, "x2.nc".toList]]

theorem exFiles_valid : ∀ f ∈ exFiles, Valid f := by
  intro f hf
  simp only [exFiles, List.mem_cons, List.not_mem_nil, or_false] at hf
  rcases hf with rfl | rfl <;> (intro c hc; revert c; decide)

/-- a file below the home directory and one elsewhere -/
example : exFiles.map (compress ["home".toList, "a".toList]) = ["~/x1.nc".toList, "/data/x2.nc".toList] := by decide

example := index_round_trip false {} ⟨rfl, rfl, rfl⟩ rfl rfl exHarm 2 rfl exHarm_wf (by decide) exFiles (by decide) (by decide)
  (by decide) exFiles_valid ["home".toList, "a".toList] [] (fun _ => none)

example := index_ascii exHarm 2 rfl exHarm_wf (by decide) exFiles (by decide) (by decide) (by decide) exFiles_valid
  ["home".toList, "a".toList] [] (fun _ => none)

/-- the orders that are possible for two increasing dates -/
example : IsArgsort (exHarm.time.take 2) [0, 1] := by
  refine ⟨by decide, ?_⟩
  simp [exHarm]
  norm_num

example (r) : toIndex (some (dataWriter true {})) [] exHarm [[], ["a".toList], ["b".toList]] (fun _ => none) ≠ .ok r :=
  index_too_many _ _ exHarm 2 rfl _ (by decide) _ r

example := index_unknown_format (C := File ℚ) [] [] exHarm 2 rfl exHarm_wf exFiles (by decide) (fun _ => none)

end Verif.HarmIO.Data
