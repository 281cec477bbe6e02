import Verif.Uplift.Field2
import Verif.Dealias.Main

/-!
# C97: maps of elastic uplift from AOD1B archives
-/
namespace Verif.Uplift
open Verif.Names Verif.Time Verif.Time.Spec Verif.Dealias Verif.Harmonics Verif.Legendre
open Verif.GeoRead (pad2 pad4)

/-! ## One archive -/

theorem month_days (y m : ℕ) (h4 : y % 4000 ≠ 0) (hm : 1 ≤ m ∧ m ≤ 12) :
    ∃ dpm, calendarDays (y : ℤ) = some dpm ∧ pyIdx dpm ((m : ℤ) - 1) = some ((monthLen y m : ℤ) : ℚ) := by
  obtain ⟨dpm, h1, -, h2, -⟩ := calendarDays_spec (y : ℤ)
  refine ⟨dpm, h1, ?_⟩
  unfold pyIdx
  rw [if_pos (by omega)]
  exact h2 m (by omega) (by omega) (by omega)

theorem monthLen_pos (y m : ℤ) : 0 < monthLen y m := by
  unfold monthLen
  split_ifs <;> norm_num

/-- C97: the maps of an archive are those of its fields -/
theorem month_maps (eps scalef : ℝ) (hs : scalef ≠ 0) (E : Units.Earth) (hl kl ll : ℕ → ℝ) (f : ℕ → ℝ)
    (hf : upliftFactor E hl kl ll = some f) (j : Job) (nt L : ℕ) (hnt : nt ≠ 0) (hL : 2 ≤ L) (P : List (ℕ × ℕ)) (hP : Layout L P)
    (a : Arch) (y m : ℕ) (ha : IsMonth j.dset P nt a y m) :
    ∃ g, archiveMaps eps scalef f j nt L (pad4 y) (pad2 m) a.tar.members = .ok g ∧
      IsUplift eps (rise E hl kl) L nt j.lons j.lats a y m g := by
  obtain ⟨hname, ⟨hy1, hy2, hy4⟩, hm, hmem, hne, hfiles, honce⟩ := ha
  obtain ⟨dpm, hd1, hd2⟩ := month_days y m hy4 hm
  have hpos := monthLen_pos y m
  set days := (monthLen y m).toNat with hdays
  have hcast : ((monthLen y m : ℤ)) = (days : ℤ) := by omega
  obtain ⟨s, hread, hlast, hcols, hother⟩ := readArchive_ok j.dset P nt days y m hnt a.files ⟨fun _ => none, []⟩
    (fun f hf => by
      obtain ⟨q1, q2, q3, q4, q5, q6⟩ := hfiles f hf
      exact ⟨q1, q2, q3, q4, q5, by omega⟩) honce
  have hfac : f = rise E hl kl := by
    unfold upliftFactor Units.harmonic at hf
    simp only [Option.some.injEq] at hf
    rw [← hf]
    funext l
    simp [rise, Units.fraction]
  -- every position is that of one day
  have hday : ∀ d c t : ℕ, 1 ≤ d → t = (d - 1) * nt + c → c < nt → ∀ d', 1 ≤ d' → d' ≠ d → t < (d' - 1) * nt ∨ (d' - 1) * nt + nt ≤ t := by
    intro d c t h1 ht hc d' h1' hne'
    rcases Nat.lt_or_gt_of_ne hne' with hlt | hlt
    · right
      have : (d' - 1) + 1 ≤ d - 1 := by omega
      have := Nat.mul_le_mul_right nt this
      rw [Nat.add_mul] at this
      omega
    · left
      have : (d - 1) + 1 ≤ d' - 1 := by omega
      have := Nat.mul_le_mul_right nt this
      rw [Nat.add_mul] at this
      omega
  have hpos2 : ∀ t < nt * days, ∃ d c, 1 ≤ d ∧ d ≤ days ∧ c < nt ∧ t = (d - 1) * nt + c := by
    intro t ht
    refine ⟨t / nt + 1, t % nt, Nat.le_add_left 1 _, ?_, Nat.mod_lt _ (by omega), ?_⟩
    · have := (Nat.div_lt_iff_lt_mul (by omega : 0 < nt)).2 (by rw [Nat.mul_comm]; exact ht : t < days * nt)
      exact this
    · rw [Nat.add_sub_cancel, Nat.mul_comm]; exact (Nat.div_add_mod t nt).symm
  have hstored : ∀ t < nt * days, s.cols t = none ∨ ∃ d h, s.cols t = some (colOf P y m d h) := by
    intro t ht
    obtain ⟨d, c, h1, h2, h3, rfl⟩ := hpos2 t ht
    by_cases hex : ∃ f ∈ a.files, f.1.d = d
    · obtain ⟨f, hf, rfl⟩ := hex
      obtain ⟨-, -, -, q4, -⟩ := hfiles f hf
      right
      exact ⟨f.1.d, f.1.hours[c], hcols f hf c _ (List.getElem?_eq_getElem (by omega))⟩
    · left
      exact hother _ fun f hf => hday d c _ h1 rfl h3 f.1.d (hfiles f hf).2.2.2.2.1 (fun e => hex ⟨f, hf, e⟩)
  have htime : ∀ t < nt * days, ∃ x, timeOf (s.cols t) = some x := by
    intro t ht
    rcases hstored t ht with h | ⟨d, h, hc⟩
    · rw [h]; exact time_none
    · rw [hc]; exact time_some P y m d (by omega) hm h
  have hmaps := mapsOf_ok eps scalef hs L (nt * days) y m hL P hP f j.lons j.lats (sinceOf (pad4 y) (pad2 m)) s (hlast hne) hstored htime
  have harch : archiveMaps eps scalef f j nt L (pad4 y) (pad2 m) a.tar.members = .ok ⟨j.lons, j.lats,
      (List.range (nt * days)).map fun t => mapOf eps f L j.lons j.lats (s.cols t),
      (List.range (nt * days)).map fun t => hoursOf (s.cols t), sinceOf (pad4 y) (pad2 m)⟩ := by
    unfold archiveMaps
    rw [pyInt_isDigits _ (pad4_isDigits y), pyInt_isDigits _ (pad2_isDigits m), GeoRead.pad4_val y hy2, GeoRead.pad2_val m (by omega)]
    simp only
    rw [hd1]
    simp only
    rw [hd2]
    simp only
    rw [Int.floor_intCast, ← hdays, ← layout_length L P hP, hmem, hread]
    simp only
    rw [hmaps]
  refine ⟨_, harch, ?_⟩
  · constructor
    · rfl
    · rfl
    · rfl
    · simp [hdays]
    · intro q hq c h hc
      obtain ⟨-, -, -, q4, q5, q6⟩ := hfiles q hq
      have hcn : c < nt := by
        have := (List.getElem?_eq_some_iff.1 hc).1
        omega
      have hlt : (q.1.d - 1) * nt + c < nt * days := by
        have : (q.1.d - 1) + 1 ≤ days := by omega
        have := Nat.mul_le_mul_left nt this
        rw [Nat.mul_add, Nat.mul_comm nt (q.1.d - 1)] at this
        omega
      have hcol := hcols q hq c h hc
      simp only [List.getElem?_map, List.getElem?_range hlt, Option.map_some, hcol]
      rw [hfac, mapOf_some eps _ L _ _ P hP y m q.1.d h]
      exact ⟨rfl, rfl⟩
    · intro d c h1 h2 hno hc
      have hlt : (d - 1) * nt + c < nt * days := by
        have : (d - 1) + 1 ≤ days := by omega
        have := Nat.mul_le_mul_left nt this
        rw [Nat.mul_add, Nat.mul_comm nt (d - 1)] at this
        omega
      have hcol : s.cols ((d - 1) * nt + c) = none :=
        hother _ fun q hq => hday d c _ h1 rfl hc q.1.d (hfiles q hq).2.2.2.2.1 (hno q hq)
      simp only [List.getElem?_map, List.getElem?_range hlt, Option.map_some, hcol]
      rw [mapOf_none]
      exact ⟨rfl, rfl⟩

/-- an output file is to be made: there is none, or it is older than the archive -/
def Due (old : Option (ℚ × Content)) (tar : Tar) : Prop := ∀ t c, old = some (t, c) → t < tar.mtime

theorem stale_iff (old : Option (ℚ × Content)) (tar : Tar) : stale old tar = true ↔ Due old tar := by
  unfold stale Due
  cases old with
  | none => simp
  | some x => obtain ⟨t, c⟩ := x; simp

/-- C97: the file of a month is made and listed exactly if it is missing or older than the archive -/
theorem archive_step (eps scalef : ℝ) (hs : scalef ≠ 0) (E : Units.Earth) (hl kl ll : ℕ → ℝ) (f : ℕ → ℝ)
    (hf : upliftFactor E hl kl ll = some f) (j : Job) (hform : j.form ≠ .ascii) (hyears : Asked j.years) (nt L : ℕ) (hnt : nt ≠ 0)
    (hL : 2 ≤ L) (P : List (ℕ × ℕ)) (hP : Layout L P) (a : Arch) (y m : ℕ) (ha : IsMonth j.dset P nt a y m) (hw : Wanted j.years y)
    (now : ℚ) (st : Disk × List Name) :
    (Due (st.1 (outName j (pad4 y) (pad2 m))) a.tar → ∃ g, IsUplift eps (rise E hl kl) L nt j.lons j.lats a y m g ∧
      archStep eps scalef f j nt L now st a.tar =
        ((Function.update st.1 (outName j (pad4 y) (pad2 m)) (some (now, .maps g)), st.2 ++ [outName j (pad4 y) (pad2 m)]), .finished)) ∧
    (¬ Due (st.1 (outName j (pad4 y) (pad2 m))) a.tar → archStep eps scalef f j nt L now st a.tar = (st, .finished)) := by
  obtain ⟨g, hg, hup⟩ := month_maps eps scalef hs E hl kl ll f hf j nt L hnt hL P hP a y m ha
  obtain ⟨rel, tgz, hr, hname⟩ := ha.name
  have hdate : archDate j.years a.tar.name = some (pad4 y, pad2 m) := by
    rw [hname]; exact arch_date j.years hyears y m ⟨ha.year.1, ha.year.2.1⟩ hw rel hr tgz
  constructor
  · intro hd
    refine ⟨g, hup, ?_⟩
    unfold archStep
    rw [hdate]
    simp only
    rw [if_pos ((stale_iff _ _).2 hd), hg]
    simp only
    unfold save
    rw [if_neg hform]
  · intro hd
    unfold archStep
    rw [hdate]
    simp only
    rw [if_neg (fun h => hd ((stale_iff _ _).1 h))]

/-- C97 (deviation): in text format no map is ever written: the program ends with an exception and leaves an empty file -/
theorem text_fails (eps scalef : ℝ) (hs : scalef ≠ 0) (E : Units.Earth) (hl kl ll : ℕ → ℝ) (f : ℕ → ℝ)
    (hf : upliftFactor E hl kl ll = some f) (j : Job) (hform : j.form = .ascii) (hyears : Asked j.years) (nt L : ℕ) (hnt : nt ≠ 0)
    (hL : 2 ≤ L) (P : List (ℕ × ℕ)) (hP : Layout L P) (a : Arch) (y m : ℕ) (ha : IsMonth j.dset P nt a y m) (hw : Wanted j.years y)
    (now : ℚ) (st : Disk × List Name) (hd : Due (st.1 (outName j (pad4 y) (pad2 m))) a.tar) :
    archStep eps scalef f j nt L now st a.tar =
      ((Function.update st.1 (outName j (pad4 y) (pad2 m)) (some (now, .empty)), st.2), .raised) := by
  obtain ⟨g, hg, -⟩ := month_maps eps scalef hs E hl kl ll f hf j nt L hnt hL P hP a y m ha
  obtain ⟨rel, tgz, hr, hname⟩ := ha.name
  have hdate : archDate j.years a.tar.name = some (pad4 y, pad2 m) := by
    rw [hname]; exact arch_date j.years hyears y m ⟨ha.year.1, ha.year.2.1⟩ hw rel hr tgz
  unfold archStep
  rw [hdate]
  simp only
  rw [if_pos ((stale_iff _ _).2 hd), hg]
  simp only
  unfold save
  rw [if_pos hform]

/-- C97 (deviation): the empty file counts as up to date in the next run: the month is skipped without a message -/
theorem empty_skipped (eps scalef : ℝ) (f : ℕ → ℝ) (j : Job) (hyears : Asked j.years) (nt L : ℕ) (prod : Name) (P : List (ℕ × ℕ))
    (a : Arch) (y m : ℕ) (ha : IsMonth prod P nt a y m) (hw : Wanted j.years y) (then_ now : ℚ)
    (st : Disk × List Name) (hold : st.1 (outName j (pad4 y) (pad2 m)) = some (then_, .empty)) (hlater : a.tar.mtime ≤ then_) :
    archStep eps scalef f j nt L now st a.tar = (st, .finished) := by
  obtain ⟨rel, tgz, hr, hname⟩ := ha.name
  have hdate : archDate j.years a.tar.name = some (pad4 y, pad2 m) := by
    rw [hname]; exact arch_date j.years hyears y m ⟨ha.year.1, ha.year.2.1⟩ hw rel hr tgz
  unfold archStep
  rw [hdate]
  simp only
  rw [if_neg]
  rw [stale_iff, hold]
  intro h
  have := h then_ .empty rfl
  linarith

/-- C97 (deviation): if the first daily file has fewer fields of the product than the release should have, the program never
ends -/
theorem short_file_hangs (eps scalef : ℝ) (f : ℕ → ℝ) (j : Job) (nt L : ℕ) (P : List (ℕ × ℕ)) (hP : Layout L P) (y m : ℕ)
    (hy : y < 10000 ∧ y % 4000 ≠ 0) (hm : 1 ≤ m ∧ m ≤ 12) (D : Day) (mem : Member) (rest : List Member)
    (hname : ∃ rel gz, IsDigits rel ∧ mem.name = dailyName D.y D.m D.d rel gz) (hd : 1 ≤ D.d ∧ (D.d : ℤ) ≤ monthLen y m) (tail : List Line)
    (htext : DayText j.dset P.length tail (D.hours.map fun f => (⟨f.h, rowsOf P f⟩ : Block)) mem.text)
    (hno : ∀ line ∈ tail, ¬ Headed j.dset line) (hshort : D.hours.length < nt) :
    archiveMaps eps scalef f j nt L (pad4 y) (pad2 m) (mem :: rest) = .hangs := by
  obtain ⟨dpm, hd1, hd2⟩ := month_days y m hy.2 hm
  have hpos := monthLen_pos y m
  obtain ⟨rel, gz, hr, hname⟩ := hname
  have hlen : (monthLen y m) ≤ 31 := by unfold monthLen; split_ifs <;> norm_num
  have hb := blocks_hang j.dset P.length (nt - D.hours.length - 1) tail _ _ htext hno
  rw [List.length_map, show D.hours.length + (nt - D.hours.length - 1 + 1) = nt by omega] at hb
  unfold archiveMaps
  rw [pyInt_isDigits _ (pad4_isDigits y), pyInt_isDigits _ (pad2_isDigits m), GeoRead.pad4_val y hy.1, GeoRead.pad2_val m (by omega)]
  simp only
  rw [hd1]
  simp only
  rw [hd2]
  simp only
  rw [Int.floor_intCast, ← layout_length L P hP, readArchive, hname, member_day _ _ _ (by omega) rel hr gz]
  simp only
  unfold readDay
  rw [slots_ok nt (monthLen y m).toNat D.d hd.1 (by omega), hb]

end Verif.Uplift
