import Verif.Dealias.Series

/-!
# Monthly means of AOD1B fields: the whole program (C86)
-/
namespace Verif.Dealias
open Verif.Names Verif.Time Verif.SLR Verif.GIA Verif.SpatialIO Verif.Harmonics

/-! ## Specification -/

/-- the GRACE names of the products, and the names used in the headers of the daily files -/
def products : List (String × String) := [("GAA", "atm"), ("GAB", "ocn"), ("GAC", "glo"), ("GAD", "oba")]

/-- releases, fields per day and degree -/
def releases : List (String × ℕ × ℕ) :=
  [("RL01", 4, 100), ("RL02", 4, 100), ("RL03", 4, 100), ("RL04", 4, 100), ("RL05", 4, 100), ("RL06", 8, 180)]

/-- the requested degree; without a request (or with zero) the degree of the release -/
def Degree (want : Option ℕ) (L0 L : ℕ) : Prop := (want = none ∨ want = some 0) ∧ L = L0 ∨ (want = some L ∧ L ≠ 0)

/-! ## Proofs -/

theorem product_table (dset prod : String) (h : (dset, prod) ∈ products) : productOf dset.toList = some prod.toList := by
  simp only [products, List.mem_cons, Prod.mk.injEq, List.not_mem_nil, or_false] at h
  rcases h with ⟨rfl, rfl⟩ | ⟨rfl, rfl⟩ | ⟨rfl, rfl⟩ | ⟨rfl, rfl⟩ <;> decide

theorem release_table (drel : String) (nt L0 : ℕ) (h : (drel, nt, L0) ∈ releases) :
    releaseOf drel.toList = some (nt, L0) ∧ nt ≠ 0 := by
  simp only [releases, List.mem_cons, Prod.mk.injEq, List.not_mem_nil, or_false] at h
  rcases h with ⟨rfl, rfl, rfl⟩ | ⟨rfl, rfl, rfl⟩ | ⟨rfl, rfl, rfl⟩ | ⟨rfl, rfl, rfl⟩ | ⟨rfl, rfl, rfl⟩ | ⟨rfl, rfl, rfl⟩ <;> decide

theorem degree_spec (j : Job) (L0 L : ℕ) (h : Degree j.lmax L0 L) : j.degree L0 = L := by
  unfold Job.degree
  rcases h with ⟨h | h, rfl⟩ | ⟨h, h0⟩
  · rw [h]
  · rw [h]; rfl
  · rw [h]; simp [h0]

open scoped Classical in
/-- C86: the program.  For archives of a known release it finishes; the file of dates then lists exactly the months with a file
for every day; the file of a complete month that was missing, older than one of its daily files, or to be overwritten holds
the mean of all fields of the month; all other files are unchanged -/
theorem monthly_program (j : Job) (dset prod drel : String) (nt L0 L : ℕ) (hp : (dset, prod) ∈ products)
    (hrel : (drel, nt, L0) ∈ releases) (hjp : j.dset = dset.toList) (hjr : j.drel = drel.toList) (hL : Degree j.lmax L0 L)
    (P : List (ℕ × ℕ)) (hP : Layout L0 P) (As : List Arch) (hA : Archives prod.toList P nt As) (now : ℚ)
    (rows : List DateRow) (hr : ∀ r ∈ rows, Inside r) (hn : (rows.map (outName j L)).Nodup) (st : Disk) :
    let res := monthlyMeans j rows (As.map Arch.tar) now st
    res.2 = .finished ∧ res.1.dates = rows.filter (fun r => Complete As r) ∧
      (∀ r ∈ rows, Complete As r → Stale j As L st r → ∃ o, IsMean As L0 L r o ∧ res.1.outs (outName j L r) = some (now, o)) ∧
      (∀ name, (∀ r ∈ rows, name = outName j L r → ¬ (Complete As r ∧ Stale j As L st r)) → res.1.outs name = st.outs name) := by
  obtain ⟨hrt, hnt⟩ := release_table drel nt L0 hrel
  have hd := degree_spec j L0 L hL
  subst hd
  have e : monthlyMeans j rows (As.map Arch.tar) now st =
      monthLoop j prod.toList nt L0 (As.map Arch.tar) now { st with dates := [] } rows := by
    unfold monthlyMeans
    rw [hjp, hjr, product_table dset prod hp, hrt]
  simp only [e]
  obtain ⟨a, b⟩ := months_listed j prod.toList nt L0 hnt P hP As hA now rows hr { st with dates := [] }
  obtain ⟨c, d⟩ := months_written j prod.toList nt L0 hnt P hP As hA now rows hr hn { st with dates := [] }
  refine ⟨a, ?_, c, d⟩
  rw [b]
  simp

/-- C86: an unknown release or product is an exception, and nothing is changed -/
theorem unknown_raises (j : Job) (rows : List DateRow) (tars : List Tar) (now : ℚ) (st : Disk)
    (h : (∀ p ∈ products, j.dset ≠ p.1.toList) ∨ (∀ p ∈ releases, j.drel ≠ p.1.toList)) :
    monthlyMeans j rows tars now st = (st, .raised) := by
  unfold monthlyMeans
  rcases h with h | h
  · have : productOf j.dset = none := by
      simp only [products, List.forall_mem_cons] at h
      obtain ⟨a, b, c, d, -⟩ := h
      unfold productOf
      rw [if_neg a, if_neg b, if_neg c, if_neg d]
    rw [this]
  · have : releaseOf j.drel = none := by
      simp only [releases, List.forall_mem_cons] at h
      obtain ⟨a, b, c, d, e, f, -⟩ := h
      unfold releaseOf
      rw [if_neg (by simp only [List.map_cons, List.map_nil, List.mem_cons, List.not_mem_nil, or_false]; tauto), if_neg f]
    rw [this]
    cases productOf j.dset <;> rfl

/-- C86: the names of the output files of different months are different (except in the spherical harmonic model format, where
they differ if the days differ) -/
theorem outName_month (j : Job) (L : ℕ) (r r' : DateRow) (hf : j.form ≠ .SHM) (h : outName j L r = outName j L r') :
    r.mon = r'.mon := by
  unfold outName at h
  rw [if_neg hf, if_neg hf] at h
  have h1 := List.append_cancel_right h
  have h2 := List.append_cancel_right h1
  simp only [List.append_assoc, List.append_cancel_left_eq] at h2
  have val : ∀ n, digitsVal (zpad 3 n) = n := by
    intro n
    have hd : ∀ (xs : List (Fin 10)) (k : ℕ), digitsVal (List.replicate k '0' ++ xs.map dchar) = digitsVal (xs.map dchar) := by
      intro xs k
      induction k with
      | zero => rfl
      | succ k ih =>
        rw [List.replicate_succ, List.cons_append]
        unfold digitsVal at ih ⊢
        rw [List.foldl_cons]
        exact ih
    unfold zpad
    rw [hd]
    rw [digitsVal_decimal, decimal_natDigits]
  rw [← val r.mon, ← val r'.mon, h2]

/-! ## Concrete cases -/

/-- the usual order of the lines -/
theorem layout_usual (L : ℕ) : Layout L ((List.range (L + 1)).flatMap fun l => (List.range (l + 1)).map fun m => (l, m)) := by
  constructor
  · rw [List.nodup_flatMap]
    refine ⟨fun x _ => List.Nodup.map (fun a b hab => by simpa using hab) List.nodup_range, ?_⟩
    refine List.Nodup.pairwise_of_forall_ne List.nodup_range ?_
    intro a _ b _ hab
    simp only [Function.onFun, List.disjoint_left, List.mem_map]
    rintro x ⟨c, -, rfl⟩ ⟨d, -, hd⟩
    simp only [Prod.mk.injEq] at hd
    exact hab hd.1.symm
  · intro l m
    simp only [List.mem_flatMap, List.mem_range, List.mem_map, Prod.mk.injEq]
    constructor
    · rintro ⟨a, h1, b, h2, rfl, rfl⟩; omega
    · rintro ⟨h1, h2⟩; exact ⟨l, by omega, m, by omega, rfl, rfl⟩

/-- a header of the ocean bottom pressure product, with the hour 6 -/
def sampleHead : Line := "DATA SET 13: 16471 COEFFICIENTS FOR 2006-01-01 06:00:00 OF TYPE oba".toList

/-- a line of coefficients -/
def sampleRow : Line := "   0    0   1.5e-01 -2".toList

theorem sample_head : Headed "oba".toList sampleHead ∧ ¬ Headed "glo".toList sampleHead ∧ Clock sampleHead 6 ∧ '\n' ∉ sampleHead := by
  refine ⟨⟨" ".toList, " 13: 16471 COEFFICIENTS FOR 2006-01-01 06:00:00 OF TYPE ".toList, [], by decide⟩, ?_, ?_, by decide⟩
  · rw [← isHeader_iff _ _ (by decide)]
    decide +kernel
  · refine ⟨"DATA SET 13: 16471 COEFFICIENTS FOR 2006-01-01".toList, "06".toList, "00".toList, "00".toList, " OF TYPE oba".toList,
      by decide, ⟨by decide, by decide⟩, ⟨by decide, by decide⟩, ⟨by decide, by decide⟩, by decide, ?_, by decide, by decide⟩
    intro p q hpq c hc
    have hall : ∀ k ∈ List.range 46, (("DATA SET 13: 16471 COEFFICIENTS FOR 2006-01-01".toList).drop k).head? = some ':' →
        ∀ c ∈ (("DATA SET 13: 16471 COEFFICIENTS FOR 2006-01-01".toList).drop (k + 1)).head?, c.isDigit = false := by
      decide
    have hlen : p.length < 46 := by
      have := congrArg List.length hpq
      simp at this
      omega
    have h1 := hall p.length (List.mem_range.2 hlen)
    rw [hpq] at h1
    apply h1 (by simp)
    rw [show p ++ ':' :: q = (p ++ [':']) ++ q by simp, List.drop_left' (by simp)]
    exact hc

theorem sample_row : CoefLine sampleRow ⟨0, 0, 3 / 20, -2⟩ := by
  refine ⟨0, [], 0, [], .dec ⟨.none, [1], [5], some (false, .minus, 0, [1]), by decide⟩, .int .minus 2 [] none, [], ?_, rfl, rfl, ?_, ?_⟩
  · have e : sampleRow = ' ' :: ' ' :: ' ' :: ((Tok.int .none 0 [] none).chars ++ ' ' :: ' ' :: ' ' :: ' ' ::
        ((Tok.int .none 0 [] none).chars ++ ' ' :: ' ' :: ' ' :: ((Tok.dec ⟨.none, [1], [5], some (false, .minus, 0, [1]), by decide⟩).chars ++
        ' ' :: ((Tok.int .minus 2 [] none).chars ++ [])))) := by decide
    rw [e]
    have st : ∀ r, Stop (' ' :: r) := fun r => Or.inr ⟨' ', r, rfl, by decide⟩
    exact .blank _ (by decide) (.blank _ (by decide) (.blank _ (by decide) (.num _ (st _) (.blank _ (by decide)
      (.blank _ (by decide) (.blank _ (by decide) (.blank _ (by decide) (.num _ (st _) (.blank _ (by decide) (.blank _ (by decide)
      (.blank _ (by decide) (.num _ (st _) (.blank _ (by decide) (.num _ (Or.inl rfl) .nil))))))))))))))
  · simp [Tok.val]; decide +kernel
  · simp [Tok.val]; decide +kernel

/-- a day with one field of degree zero (the releases have four or eight of degree 100 or 180; the theorems on single months
hold for any number and degree) -/
def sampleDay : Day := ⟨2006, 1, 1, [⟨6, fun _ _ => 3 / 20, fun _ _ => -2⟩]⟩

/-- its file -/
def sampleMember : Member := ⟨dailyName 2006 1 1 "06".toList true, 1136073600, ["#".toList, sampleHead, sampleRow]⟩

/-- its archive -/
def sampleArch : Arch := ⟨⟨archiveName 2006 1 "06".toList false, 1136073600, [sampleMember]⟩, [(sampleDay, sampleMember)]⟩

/-- the line of dates of a "month" of this day -/
def sampleMonth : DateRow := ⟨2006.001, 49, 2006, 1, 2006, 1, 1⟩

theorem sample_file : FileOf "oba".toList [(0, 0)] sampleDay sampleMember := by
  refine ⟨⟨"06".toList, true, ⟨by decide, by decide⟩, rfl⟩, by decide, by decide, by decide, [], ?_⟩
  obtain ⟨h1, -, h2, h3⟩ := sample_head
  refine .other _ ?_ (.block sampleHead 6 _ [sampleRow] h3 h1 h2 rfl (.cons sample_row .nil) .done)
  rw [← isHeader_iff _ _ (by decide)]
  decide +kernel

example : Layout 0 [(0, 0)] ∧ Archives "oba".toList [(0, 0)] 1 [sampleArch] ∧ Inside sampleMonth ∧ Complete [sampleArch] sampleMonth := by
  refine ⟨layout_usual 0, ⟨?_, by decide⟩, ⟨rfl, by decide, by decide, by decide, by decide, by decide, by decide, by decide⟩, ?_⟩
  · intro a ha
    rw [List.mem_singleton] at ha
    subst ha
    refine ⟨2006, 1, "06".toList, false, rfl, ⟨by decide, by decide⟩, by decide, by decide, rfl, ?_⟩
    intro f hf
    rw [sampleArch, List.mem_singleton] at hf
    subst hf
    exact ⟨sample_file, rfl, rfl, rfl⟩
  · intro p hp
    have : monthDays sampleMonth = [((2006 : ℤ), (1 : ℤ), (1 : ℤ))] := by decide
    rw [this, List.mem_singleton] at hp
    subst hp
    exact ⟨(sampleDay, sampleMember), by simp [filesOf, sampleArch], rfl⟩

/-- with a month of two days the program goes on without output -/
example : (monthStep ⟨"CSR".toList, "RL06".toList, "GAD".toList, none, .ascii, false⟩ "oba".toList 1 0 [sampleArch.tar] 1136073700
    ⟨fun _ => none, []⟩ ⟨2006.001, 49, 2006, 1, 2006, 2, 2⟩).2 = .finished := by
  decide +kernel

end Verif.Dealias
