import Verif.GeoFile.Hash
import Verif.GeoFile.Data

/-!
# C120: geocenter files written by calc_degree_one.py are read again, or not
-/
namespace Verif.GeoFile
open Verif.SLR Verif.SpatialIO Verif.HarmIO Verif.MeanField Verif.GeoRead

theorem hash_mem : '#' ∈ "# End of YAML header".toList := by decide +kernel

theorem no_mark (ls : List Line) (h : NoHash ls) : ∀ l ∈ ls, ¬ ContainsText "# End of YAML header" l := by
  intro l hl hc
  obtain ⟨a, b, e⟩ := hc
  refine h l hl '#' ?_ rfl
  rw [e]
  exact List.mem_append_left _ (List.mem_append_right _ hash_mem)

theorem mark_ok : ContainsText "# End of YAML header" endMark :=
  ⟨[], [], by unfold endMark; simp only [List.nil_append, List.append_nil]⟩

theorem fileLines_some (f : Info) (ds : List Date) (hd : ds ≠ []) :
    ∃ first last : ℤ, fileLines f ds = some (headerLines f first last ++ endMark :: ds.map dataLine) := by
  cases ds with
  | nil => exact absurd rfl hd
  | cons a r =>
    refine ⟨a.month, ((a :: r).getLast hd).month, ?_⟩
    unfold fileLines
    rw [List.getLast?_eq_some_getLast hd]
    rfl

/-- **C120** what `calc_degree_one.py` writes is read again by `from_UCI`, header included: every date in order, the date to
four decimals, the coefficients under their names to seven digits, the month exactly -/
theorem written_read (f : Info) (h : Texts f) (hr : GoodReference f.reference) (ds : List Date) (hd : ds ≠ [])
    (hx : ∀ d ∈ ds, InRange d.c10 ∧ InRange d.c11 ∧ InRange d.s11) :
    ∃ ls rs, fileLines f ds = some ls ∧ fromUCI variablesOf ls = some rs ∧
      List.Forall₂ (fun (d : Date) (r : UEntry) => |r.time - d.time| ≤ 1 / 2 / 10 ^ 4 ∧ r.month = (d.month : ℤ) ∧
        ∃ a b c, r.data = [("C10", a), ("C11", b), ("S11", c)] ∧ |a - d.c10| ≤ 1 / 2 / 10 ^ 6 * |d.c10| ∧
          |b - d.c11| ≤ 1 / 2 / 10 ^ 6 * |d.c11| ∧ |c - d.s11| ≤ 1 / 2 / 10 ^ 6 * |d.s11|) ds rs := by
  obtain ⟨first, last, hl⟩ := fileLines_some f ds hd
  have hhash : ∀ c ∈ orNone f.reference, c ≠ '#' := by
    rcases hr with e | ⟨p, hp, -, e⟩ | ⟨a, s, e, -, h2, -⟩
    · rw [e]; decide +kernel
    · rw [e]
      exact (gia_spec p hp).2.1
    · rw [e]; exact h2
  obtain ⟨rs, h1, h2⟩ := uci_roundtrip variablesOf (headerLines f first last) endMark
    (ds.map fun d => (d.deg1, dataLine d)) (no_mark _ (noHash_header f h first last hhash)) mark_ok
    (variables_of_header f h first last (references_items f (good_item _ hr))) (by
      intro p hp
      obtain ⟨d, hd', rfl⟩ := List.mem_map.1 hp
      obtain ⟨x0, x1, x2⟩ := hx d hd'
      exact written d x0 x1 x2)
  rw [List.map_map] at h1
  refine ⟨_, rs, hl, h1, ?_⟩
  rw [List.forall₂_map_left_iff] at h2
  exact h2

/-- **C120** a reference with two colons that have a blank behind them makes the file unreadable, whatever else is in it -/
theorem two_colons_unreadable (f : Info) (h : Texts f) (a : Char) (s : Line) (hr : f.reference = some (a :: s))
    (ha : a ≠ ' ') (hh : ∀ c ∈ a :: s, c ≠ '#') (hc : 2 ≤ colons (a :: s)) (ds : List Date) (hd : ds ≠ []) :
    ∃ ls, fileLines f ds = some ls ∧ fromUCI variablesOf ls = none := by
  obtain ⟨first, last, hl⟩ := fileLines_some f ds hd
  refine ⟨_, hl, ?_⟩
  have hp := item_two a s hh ha hc
  have hmem : item (a :: s) ∈ headerLines f first last := by
    have : (a :: s) ∈ references f := by
      unfold references
      rw [hr]
      simp [orNone]
    unfold headerLines printGlobal
    simp only [List.mem_append]
    exact Or.inr (Or.inr (Or.inl (Or.inl (Or.inr (List.mem_map_of_mem (f := fun r => blanks 6 ++ ('-' :: ' ' :: r)) this)))))
  have hy : variablesOf (headerLines f first last ++ [endMark]) = none := by
    unfold variablesOf yaml
    rw [mapM_none parseLine _ _ (List.mem_append_left _ hmem) hp]
    rfl
  have hm := no_mark _ (noHash_header f h first last (by rw [hr]; exact hh))
  unfold fromUCI
  rw [skipHeader_found _ (headerLines f first last) endMark _ (fun x hx => hasText_false _ _ (hm x hx))
    ((hasText_iff _ _).2 mark_ok)]
  have htake : (headerLines f first last ++ endMark :: ds.map dataLine).take
      ((headerLines f first last ++ endMark :: ds.map dataLine).length - (ds.map dataLine).length) =
      headerLines f first last ++ [endMark] := by
    have : (headerLines f first last ++ endMark :: ds.map dataLine).length - (ds.map dataLine).length =
        (headerLines f first last ++ [endMark]).length := by
      simp only [List.length_append, List.length_cons, List.length_nil]; omega
    rw [this, show headerLines f first last ++ endMark :: ds.map dataLine =
      (headerLines f first last ++ [endMark]) ++ ds.map dataLine by simp, List.take_left]
  simp only [Option.bind_eq_bind, Option.bind_some]
  rw [htake, hy]
  rfl

/-- **C120** files made with the GIA model `ICE6G` cannot be read: its reference has two such colons -/
theorem ice6g_unreadable (f : Info) (h : Texts f) (c r : Line) (hm : ("ICE6G", c, r) ∈ giaReferences)
    (hr : f.reference = some r) (ds : List Date) (hd : ds ≠ []) :
    ∃ ls, fileLines f ds = some ls ∧ fromUCI variablesOf ls = none := by
  have e := gia_ice6g c r hm
  have h3 := (gia_spec _ hm).2.1
  dsimp only at h3
  rw [e, peltier_head] at hr h3
  refine two_colons_unreadable f h 'W' giaPeltier.tail hr (by decide) h3 ?_ ds hd
  rw [← peltier_head]
  exact peltier_colons

/-- **C120** what the header says about the run: the months of the first and of the last date, the love number to three decimals, the
release without its letters, and whether the dealiasing has been restored -/
theorem header_facts (f : Info) (a b : Date) (ds : List Date) (ls : List Line) (ha : ds.head? = some a)
    (hb : ds.getLast? = some b) (hl : fileLines f ds = some ls) :
    field 4 22 "time_coverage_start" (monthText a.month) ∈ ls ∧ field 4 22 "time_coverage_end" (monthText b.month) ∈ ls ∧
      field 6 20 "value" (fmtF 0 3 f.kl) ∈ ls ∧ field 4 22 "product_version" ("Release-".toList ++ f.DREL.drop 2) ∈ ls ∧
      field 4 22 "source" ("An inversion using ".toList ++ "GRACE/GRACE-FO".toList ++ " measurements and ".toList ++
        (f.MODEL.map fun c => if c = '_' then ' ' else c) ++ " ocean model outputs.".toList ++
        if f.AOD then "  Atmospheric and oceanic variation restored using the ".toList ++ f.DREL ++ " de-aliasing product.".toList
        else []) ∈ ls := by
  unfold fileLines at hl
  rw [ha, hb] at hl
  simp only [Option.some.injEq] at hl
  rw [← hl]
  unfold headerLines printHarmonic printGlobal source mission
  refine ⟨?_, ?_, ?_, ?_, ?_⟩ <;> simp only [List.mem_append, List.mem_cons, true_or, or_true]

/-! ## The hypotheses can be met -/

/-- a run with the model of Caron and a run with ICE-6G -/
def exampleRun (k : ℕ) : Info :=
  ⟨"CSR".toList, "RL06".toList, "MPIOM".toList, true, (giaReferences[k]?).map fun p => p.2.1,
    (giaReferences[k]?).map fun p => p.2.2, "GSFC", "CSR", 21 / 1000, (2022, 5, 1)⟩

theorem exampleTexts (k : ℕ) : Texts (exampleRun k) where
  PROC := plain_lit "CSR".toList (by decide +kernel)
  DREL := plain_lit "RL06".toList (by decide +kernel)
  MODEL := plain_lit "MPIOM".toList (by decide +kernel)
  citation := by
    intro c hc
    simp only [exampleRun, Option.map_eq_some_iff] at hc
    obtain ⟨p, hp, rfl⟩ := hc
    exact (gia_spec p (List.mem_of_getElem? hp)).2.2

theorem exampleNames : (giaReferences.map Prod.fst)[1]? = some "ICE6G" ∧ (giaReferences.map Prod.fst)[5]? = some "Caron" := by
  decide +kernel

example : ∃ ls rs, fileLines (exampleRun 5) [⟨2002.29, 1 / 10 ^ 10, -3 / 10 ^ 10, 0, 4⟩] = some ls ∧
    fromUCI variablesOf ls = some rs ∧ rs.length = 1 := by
  have hn := exampleNames.2
  rw [List.getElem?_map, Option.map_eq_some_iff] at hn
  obtain ⟨p, hp, hq⟩ := hn
  obtain ⟨ls, rs, h1, h2, h3⟩ := written_read (exampleRun 5) (exampleTexts 5)
    (Or.inr (Or.inl ⟨p, List.mem_of_getElem? hp, by rw [hq]; decide, by simp only [exampleRun, hp, Option.map_some]⟩))
    [⟨2002.29, 1 / 10 ^ 10, -3 / 10 ^ 10, 0, 4⟩] (by simp) (by
      intro d hd
      simp only [List.mem_singleton] at hd
      subst hd
      refine ⟨Or.inr ?_, Or.inr ?_, Or.inl rfl⟩ <;> norm_num [abs_of_pos, abs_of_neg])
  exact ⟨ls, rs, h1, h2, h3.length_eq.symm⟩

example : ∃ ls, fileLines (exampleRun 1) [⟨2002.29, 0, 0, 0, 4⟩] = some ls ∧ fromUCI variablesOf ls = none := by
  have hn := exampleNames.1
  rw [List.getElem?_map, Option.map_eq_some_iff] at hn
  obtain ⟨⟨n, c, r⟩, hp, rfl⟩ := hn
  exact ice6g_unreadable (exampleRun 1) (exampleTexts 1) c r (List.mem_of_getElem? hp)
    (by simp only [exampleRun, hp, Option.map_some]) _ (by simp)

end Verif.GeoFile
