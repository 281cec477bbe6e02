import Verif.GeoFile.MonteDoc
import Verif.GeoFile.Props

/-!
# C122: Monte Carlo geocenter files are read again
-/
namespace Verif.GeoFile
open Verif.SLR Verif.SpatialIO Verif.HarmIO Verif.MeanField Verif.GeoRead Verif.GIA Verif.Time

/-- the numbers of a line, in their columns -/
theorem mc_tokens (d : McDate) (h0 : InRange d.c10) (h1 : InRange d.c11) (h2 : InRange d.s11) (h3 : InRange d.ec10)
    (h4 : InRange d.ec11) (h5 : InRange d.es11) :
    ∃ m ms, LRow (mcDataLine d) [.dec (litOf 4 d.time), .dec (litEL 6 d.c10), .dec (litEL 6 d.c11), .dec (litEL 6 d.s11),
      .dec (litEL 6 d.ec10), .dec (litEL 6 d.ec11), .dec (litEL 6 d.es11), .int .none m ms none] ∧
      (decimal (m :: ms) : ℤ) = d.month := by
  obtain ⟨k0, e0⟩ := fmtF_eq 11 4 d.time
  obtain ⟨k1, e1⟩ := fmtEL_blank _ h0
  obtain ⟨k2, e2⟩ := fmtEL_blank _ h1
  obtain ⟨k3, e3⟩ := fmtEL_blank _ h2
  obtain ⟨k4, e4⟩ := fmtEL_blank _ h3
  obtain ⟨k5, e5⟩ := fmtEL_blank _ h4
  obtain ⟨k6, e6⟩ := fmtEL_blank _ h5
  obtain ⟨m, ms, em, vm⟩ := num_intChars 3 d.month
  refine ⟨m, ms, ?_, vm⟩
  have hl : mcDataLine d = GeoRead.blanks k0 ++ ((litOf 4 d.time).chars ++ (GeoRead.blanks (k1 + 1) ++ ((litEL 6 d.c10).chars ++
      (GeoRead.blanks (k2 + 1) ++ ((litEL 6 d.c11).chars ++ (GeoRead.blanks (k3 + 1) ++ ((litEL 6 d.s11).chars ++
      (GeoRead.blanks (k4 + 1) ++ ((litEL 6 d.ec10).chars ++ (GeoRead.blanks (k5 + 1) ++ ((litEL 6 d.ec11).chars ++
      (GeoRead.blanks (k6 + 1) ++ ((litEL 6 d.es11).chars ++ (GeoRead.blanks 1 ++ intChars .none m ms)))))))))))))) := by
    unfold mcDataLine
    rw [e0, e1, e2, e3, e4, e5, e6, em]
    simp [GeoRead.blanks]
  have step : ∀ (n k : ℕ) (x : Lit) (cs : List Char) (ts : List Tok), LRow (GeoRead.blanks (k + 1) ++ cs) ts →
      LRow (GeoRead.blanks n ++ (x.chars ++ (GeoRead.blanks (k + 1) ++ cs))) (.dec x :: ts) := fun n k x cs ts h =>
    lrow_blanks _ _ _ (lrow_num _ _ (.dec x) (stop_blanks _ _) h)
  rw [hl]
  refine step _ _ _ _ _ (step _ _ _ _ _ (step _ _ _ _ _ (step _ _ _ _ _ (step _ _ _ _ _ (step _ _ _ _ _ (step _ 0 _ _ _
    (lrow_blanks _ _ _ ?_)))))))
  have := lrow_num [] [] (.int .none m ms none) (Or.inl rfl) .nil
  simpa [Tok.chars, exChars] using this

/-- what is read from a line: the rounded numbers under their names -/
theorem mc_line (d : McDate) (h0 : InRange d.c10) (h1 : InRange d.c11) (h2 : InRange d.s11) (h3 : InRange d.ec10)
    (h4 : InRange d.ec11) (h5 : InRange d.es11) :
    uciLine [("C10", 1), ("C11", 2), ("S11", 3), ("eC10", 4), ("eC11", 5), ("eS11", 6)] (mcDataLine d) =
      some ⟨(litOf 4 d.time).val, d.month, [("C10", roundSig 6 d.c10), ("C11", roundSig 6 d.c11), ("S11", roundSig 6 d.s11),
        ("eC10", roundSig 6 d.ec10), ("eC11", roundSig 6 d.ec11), ("eS11", roundSig 6 d.es11)]⟩ := by
  obtain ⟨m, ms, hrow, vm⟩ := mc_tokens d h0 h1 h2 h3 h4 h5
  have hrx := rxAll_lrow _ _ hrow
  obtain ⟨j, hj⟩ := uciJulian_some (litOf 4 d.time).val
  have hp0 : rxCol (mcDataLine d) 0 = some (litOf 4 d.time).val := by rw [rxCol_lrow _ _ hrow]; rfl
  have hlast : pyInt (Tok.int Sgn.none m ms none).chars = some (d.month : ℤ) := by
    rw [pyInt_tok, ← vm]; simp [Sgn.val]
  have c0 : ∀ (x : Lit), pyFloat (Tok.dec x).chars = some x.val := fun x => pyFloat_tok (.dec x)
  unfold uciLine
  rw [hp0, hrx]
  simp only [List.map_cons, List.map_nil, List.getLast?_cons_cons, List.getLast?_singleton, Option.bind_eq_bind,
    Option.bind_some, hlast, hj, List.mapM_cons, List.mapM_nil]
  simp [pyIdx, c0, fields, litEL_val]

theorem mcColumns_read : ((mcColumns.filter fun v => v.1 ≠ "mid-epoch_time" ∧ v.1 ≠ "month").mapM uciColumn) =
    some [("C10", 1), ("C11", 2), ("S11", 3), ("eC10", 4), ("eC11", 5), ("eS11", 6)] := by decide +kernel

/-- `r` is the entry `d` up to the rounding of the format: every number under its own name -/
def McRead (d : McDate) (r : UEntry) : Prop :=
  |r.time - d.time| ≤ 1 / 2 / 10 ^ 4 ∧ r.month = (d.month : ℤ) ∧
  ∃ a b c ea eb ec, r.data = [("C10", a), ("C11", b), ("S11", c), ("eC10", ea), ("eC11", eb), ("eS11", ec)] ∧
    (|a - d.c10| ≤ 1 / 2 / 10 ^ 6 * |d.c10| ∧ |b - d.c11| ≤ 1 / 2 / 10 ^ 6 * |d.c11| ∧
      |c - d.s11| ≤ 1 / 2 / 10 ^ 6 * |d.s11|) ∧
    |ea - d.ec10| ≤ 1 / 2 / 10 ^ 6 * |d.ec10| ∧ |eb - d.ec11| ≤ 1 / 2 / 10 ^ 6 * |d.ec11| ∧
    |ec - d.es11| ≤ 1 / 2 / 10 ^ 6 * |d.es11|

/-- **C122** what `monte_carlo_degree_one.py` writes is read again by `from_UCI`, header included: every date in order, the
date to four decimals, coefficients and uncertainties under their names to seven digits, the month exactly -/
theorem mc_written_read (f : Info) (h : Texts f) (hr : GoodReference f.reference) (ds : List McDate) (hd : ds ≠ [])
    (hx : ∀ d ∈ ds, (InRange d.c10 ∧ InRange d.c11 ∧ InRange d.s11) ∧ InRange d.ec10 ∧ InRange d.ec11 ∧ InRange d.es11) :
    ∃ ls rs, mcFileLines f ds = some ls ∧ fromUCI variablesOf ls = some rs ∧
      List.Forall₂ McRead ds rs := by
  have hl : ∃ first last : ℤ, mcFileLines f ds = some (mcHeader f first last ++ endMark :: ds.map mcDataLine) := by
    cases ds with
    | nil => exact absurd rfl hd
    | cons a r =>
      refine ⟨a.month, ((a :: r).getLast hd).month, ?_⟩
      unfold mcFileLines
      rw [List.getLast?_eq_some_getLast hd]
      rfl
  obtain ⟨first, last, hl⟩ := hl
  have hhash : ∀ c ∈ orNone f.reference, c ≠ '#' := by
    rcases hr with e | ⟨p, hp, -, e⟩ | ⟨a, s, e, -, h2, -⟩
    · rw [e]; decide +kernel
    · rw [e]
      exact (gia_spec p hp).2.1
    · rw [e]; exact h2
  obtain ⟨rs, hrs, hall⟩ := mapM_forall₂ mcDataLine
    (uciLine [("C10", 1), ("C11", 2), ("S11", 3), ("eC10", 4), ("eC11", 5), ("eS11", 6)]) McRead ds (fun d hd' => by
      obtain ⟨⟨x0, x1, x2⟩, x3, x4, x5⟩ := hx d hd'
      exact ⟨_, mc_line d x0 x1 x2 x3 x4 x5, (roundTo_rounded 4 d.time).2, rfl, _, _, _, _, _, _, rfl,
        ⟨roundSig_near 6 _, roundSig_near 6 _, roundSig_near 6 _⟩, roundSig_near 6 _, roundSig_near 6 _, roundSig_near 6 _⟩)
  refine ⟨_, rs, hl, ?_, hall⟩
  have hm := no_mark _ (noHash_mc f h first last hhash)
  unfold fromUCI
  rw [skipHeader_found _ (mcHeader f first last) endMark _ (fun x hx => hasText_false _ _ (hm x hx))
    ((hasText_iff _ _).2 mark_ok)]
  have htake : (mcHeader f first last ++ endMark :: ds.map mcDataLine).take
      ((mcHeader f first last ++ endMark :: ds.map mcDataLine).length - (ds.map mcDataLine).length) =
      mcHeader f first last ++ [endMark] := by
    have : (mcHeader f first last ++ endMark :: ds.map mcDataLine).length - (ds.map mcDataLine).length =
        (mcHeader f first last ++ [endMark]).length := by
      simp only [List.length_append, List.length_cons, List.length_nil]; omega
    rw [this, show mcHeader f first last ++ endMark :: ds.map mcDataLine =
      (mcHeader f first last ++ [endMark]) ++ ds.map mcDataLine by simp, List.take_left]
  simp only [Option.bind_eq_bind, Option.bind_some]
  rw [htake, variables_of_mc f h first last (references_items f.bare (good_item _ hr))]
  simp only [Option.bind_some]
  rw [if_pos (by decide), mcColumns_read, Option.bind_some, hrs]

theorem pad_length (w : ℕ) (cs : Line) : w ≤ (pad w cs).length := by
  simp only [pad, List.length_append, List.length_replicate]
  omega

/-- **C122** the Fortran format announced in the header, `(f11.4,3e14.6,i4)`, is that of `calc_degree_one.py` and covers 57
characters; the lines written have at least 99 -/
theorem mc_format_string (f : Info) (d : McDate) (first last : ℤ) :
    field 4 22 "formatting_string" "(f11.4,3e14.6,i4)".toList ∈ mcHeader f first last ∧
      11 + 3 * 14 + 4 < 99 ∧ 99 ≤ (mcDataLine d).length := by
  refine ⟨?_, by decide, ?_⟩
  · unfold mcHeader printHarmonic
    simp
  · have hf : 11 ≤ (fmtF 11 4 d.time).length := by unfold fmtF; exact pad_length _ _
    have he : ∀ x, 14 ≤ (fmtEL 14 6 x).length := fun x => by unfold fmtEL; exact pad_length _ _
    have hn : 3 ≤ (num 3 d.month).length := by
      simp only [num, List.length_append, List.length_replicate, List.length_map]
      omega
    unfold mcDataLine
    simp only [List.length_append, List.length_cons]
    have := he d.c10; have := he d.c11; have := he d.s11; have := he d.ec10; have := he d.ec11; have := he d.es11
    omega

/-- **C122** what the header says about the run: the months of the first and of the last date, the love number to three decimals, and a
source without restored dealiasing, whatever the setting of the other script is -/
theorem mc_header_facts (f : Info) (a b : McDate) (ds : List McDate) (ls : List Line) (ha : ds.head? = some a)
    (hb : ds.getLast? = some b) (hl : mcFileLines f ds = some ls) :
    field 4 22 "time_coverage_start" (monthText a.month) ∈ ls ∧ field 4 22 "time_coverage_end" (monthText b.month) ∈ ls ∧
      field 6 20 "value" (fmtF 0 3 f.kl) ∈ ls ∧
      field 4 22 "source" ("An inversion using ".toList ++ "GRACE/GRACE-FO".toList ++ " measurements and ".toList ++
        (f.MODEL.map fun c => if c = '_' then ' ' else c) ++ " ocean model outputs.".toList) ∈ ls := by
  unfold mcFileLines at hl
  rw [ha, hb] at hl
  simp only [Option.some.injEq] at hl
  rw [← hl]
  unfold mcHeader printHarmonic printGlobal source mission
  refine ⟨?_, ?_, ?_, ?_⟩ <;> simp

/-! ## The hypotheses can be met -/

example : ∃ ls rs, mcFileLines (exampleRun 5) [⟨2002.29, 1 / 10 ^ 10, -3 / 10 ^ 10, 0, 1 / 10 ^ 11, 0, 0, 4⟩] = some ls ∧
    fromUCI variablesOf ls = some rs ∧ rs.length = 1 := by
  have hn := exampleNames.2
  rw [List.getElem?_map, Option.map_eq_some_iff] at hn
  obtain ⟨p, hp, hq⟩ := hn
  obtain ⟨ls, rs, h1, h2, h3⟩ := mc_written_read (exampleRun 5) (exampleTexts 5)
    (Or.inr (Or.inl ⟨p, List.mem_of_getElem? hp, by rw [hq]; decide, by simp only [exampleRun, hp, Option.map_some]⟩))
    [⟨2002.29, 1 / 10 ^ 10, -3 / 10 ^ 10, 0, 1 / 10 ^ 11, 0, 0, 4⟩] (by simp) (by
      intro d hd
      simp only [List.mem_singleton] at hd
      subst hd
      refine ⟨⟨Or.inr ?_, Or.inr ?_, Or.inl rfl⟩, Or.inr ?_, Or.inl rfl, Or.inl rfl⟩ <;> norm_num [abs_of_pos, abs_of_neg])
  exact ⟨ls, rs, h1, h2, h3.length_eq.symm⟩

end Verif.GeoFile
