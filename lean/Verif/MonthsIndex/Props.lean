import Verif.MonthsIndex.Lines

/-!
# C100: the index of months

`GRACE_months.txt` has a column for every dataset with a date file and a line for every month from April 2002 to the last
month of any dataset, showing the dates of the month or that it is missing.
-/
namespace Verif.MonthsIndex
open Verif.Time Verif.Dates Verif.SLR Verif.SpatialIO Verif.MonthsIndex.Spec

/-- everything about the line of a month for which all the datasets can be shown -/
theorem line_ok (disk : Disk) (drel : List Text) (rows : Text → Text → List Dated) (data : List (Text × List Row))
    (hdata : ∀ k v, (k, v) ∈ data ↔ ∃ p r, Listed disk drel p r ∧ k = name p r ∧ v = (rows p r).map rowOf)
    (hne : data ≠ []) (m : ℤ) (h4 : 4 ≤ m) (h9 : m < 1000)
    (ho : ∀ p r, Listed disk drel p r → ∀ d ∈ rows p r, d.mon = m → Ordinary d)
    (hf : ∀ p r, Listed disk drel p r → Fits (rows p r) m) :
    ∃ line, monthLine data m = .ok line ∧ LineOf disk drel rows (data.map Prod.fst) line m := by
  have hex : ∀ q ∈ data, ∃ c, entry q.2 m = .ok c := by
    rintro ⟨k, v⟩ hq
    obtain ⟨p, r, hl, rfl, rfl⟩ := (hdata k v).1 hq
    exact ⟨_, entry_fits _ m (hf p r hl)⟩
  let g : Text × List Row → Text := fun q => match entry q.2 m with | .ok c => c | .error _ => []
  have hg : ∀ q ∈ data, entry q.2 m = .ok (g q) := by
    intro q hq
    obtain ⟨c, hc⟩ := hex q hq
    simp only [g, hc]
  have hgc : ∀ p r, Listed disk drel p r → g (name p r, (rows p r).map rowOf) = cell (rows p r) m := by
    intro p r hl
    simp only [g, entry_fits _ m (hf p r hl)]
  have hlen : ∀ s ∈ (data.map g).map (pad 20), s.length = 20 := by
    intro s hs
    rw [List.map_map] at hs
    obtain ⟨⟨k, v⟩, hq, rfl⟩ := List.mem_map.1 hs
    obtain ⟨p, r, hl, rfl, rfl⟩ := (hdata k v).1 hq
    simp only [Function.comp]
    rw [hgc p r hl]
    exact cell_length _ m (ho p r hl)
  refine ⟨_, monthLine_ok data (data.map g) m (mapM_ok _ g data hg), ?_, ?_, ?_⟩
  · obtain ⟨h1, h2⟩ := label_ok m h4 h9
    rw [List.take_append_of_le_length (by rw [h2]), ← h2, List.take_length]
    exact h1
  · have := joinBlank_length _ hlen (by simpa using hne)
    rw [List.length_append, List.length_cons, (label_ok m h4 h9).2]
    simp only [List.length_map] at this ⊢
    omega
  · intro k p r hl hk
    rw [List.getElem?_map, Option.map_eq_some_iff] at hk
    obtain ⟨⟨k', v⟩, hq, hn⟩ := hk
    simp only at hn
    subst hn
    obtain ⟨p', r', hl', e1, e2⟩ := (hdata _ v).1 (List.mem_of_getElem? hq)
    rw [← keyOf_name, ← keyOf_name] at e1
    obtain ⟨rfl, rfl⟩ := center_key p r p' r' hl.1 hl'.1 e1
    subst e2
    have hcol : column (labelText m ++ ' ' :: joinBlank ((data.map g).map (pad 20))) k = pad 20 (cell (rows p r) m) := by
      unfold column
      rw [show labelText m ++ ' ' :: joinBlank ((data.map g).map (pad 20)) =
        (labelText m ++ [' ']) ++ joinBlank ((data.map g).map (pad 20)) by simp,
        show 12 + 21 * k = (labelText m ++ [' ']).length + 21 * k by
          rw [List.length_append, (label_ok m h4 h9).2, List.length_singleton],
        ← List.drop_drop, List.drop_left]
      refine joinBlank_slice _ hlen k _ ?_
      rw [List.getElem?_map, List.getElem?_map, hq]
      simp only [Option.map_some]
      rw [hgc p r hl]
    rw [hcol]
    exact ⟨fun d hd hm => cell_some _ m (hf p r hl) d hd hm (ho p r hl d hd hm), cell_none _ m⟩

theorem line_error (disk : Disk) (drel : List Text) (rows : Text → Text → List Dated) (data : List (Text × List Row))
    (hdata : ∀ k v, (k, v) ∈ data ↔ ∃ p r, Listed disk drel p r ∧ k = name p r ∧ v = (rows p r).map rowOf)
    (m : ℤ) (p r : Text) (hl : Listed disk drel p r) (hf : ¬ Fits (rows p r) m) : ∃ e, monthLine data m = .error e := by
  obtain ⟨e, he⟩ := mapM_error (fun q : Text × List Row => entry q.2 m) data (name p r, (rows p r).map rowOf)
    ((hdata _ _).2 ⟨p, r, hl, rfl, rfl⟩) _ (entry_error _ m hf)
  exact ⟨e, monthLine_error _ _ _ he⟩

theorem head_ok (disk : Disk) (drel : List Text) (rows : Text → Text → List Dated) (info : List (Text × List Row))
    (hn : (info.map Prod.fst).Nodup)
    (hi : ∀ k v, (k, v) ∈ info ↔ ∃ p r, Listed disk drel p r ∧ k = name p r ∧ v = (rows p r).map rowOf)
    (h21 : ∀ p r, Listed disk drel p r → (name p r).length ≤ 21) :
    HeadOf disk drel ((sortByName info).map Prod.fst) (headerLine ((sortByName info).map Prod.fst)) := by
  have hmem : ∀ n, n ∈ (sortByName info).map Prod.fst ↔ ∃ p r, Listed disk drel p r ∧ n = name p r := by
    intro n
    constructor
    · intro h
      obtain ⟨⟨k, v⟩, hq, rfl⟩ := List.mem_map.1 h
      obtain ⟨p, r, hl, e, _⟩ := (hi k v).1 ((mem_sortByName _ _).1 hq)
      exact ⟨p, r, hl, e⟩
    · rintro ⟨p, r, hl, rfl⟩
      exact List.mem_map.2 ⟨(name p r, (rows p r).map rowOf), (mem_sortByName _ _).2 ((hi _ _).2 ⟨p, r, hl, rfl, rfl⟩), rfl⟩
  refine ⟨sortByName_sorted info hn, hmem, headerLine_take _, ?_⟩
  intro k n hk
  refine headerLine_column _ ?_ k n hk
  intro n hn
  obtain ⟨p, r, hl, rfl⟩ := (hmem n).1 hn
  exact h21 p r hl

/-- **The index of months.** The date files of the datasets are read and no dataset has a month twice (nor only one line):
the index is written without an exception, has one line for every month from 4 (April 2002) to the last month of any
dataset, and each line shows for each dataset the dates of its file of the month, or that the month is missing. -/
theorem index_written (disk : Disk) (drel : List Text) (rows : Text → Text → List Dated) (M : ℤ)
    (hg : ∀ p r, Listed disk drel p r → ∃ f, disk p r = some f ∧ DateFile f (rows p r) ∧ rows p r ≠ [])
    (hM : ∀ p r, Listed disk drel p r → ∀ d ∈ rows p r, d.mon ≤ M)
    (hM' : ∃ p r, Listed disk drel p r ∧ ∃ d ∈ rows p r, d.mon = M) (h9 : M < 1000) (h0 : 0 ≤ M)
    (h21 : ∀ p r, Listed disk drel p r → (name p r).length ≤ 21)
    (ho : ∀ p r, Listed disk drel p r → ∀ d ∈ rows p r, Ordinary d)
    (hf : ∀ p r, Listed disk drel p r → ∀ m, 4 ≤ m → Fits (rows p r) m) :
    ∃ header lines names, monthsIndex disk drel = (header :: lines, none) ∧ HeadOf disk drel names header ∧
      lines.length = (M - 3).toNat ∧
      ∀ m, 4 ≤ m → m ≤ M → ∃ line, lines[(m - 4).toNat]? = some line ∧ LineOf disk drel rows names line m := by
  obtain ⟨info, mx, h1, hn, hi, hmx0, hup, hre⟩ := readAll_ok disk drel rows hg
  have hmx : mx = M := by
    obtain ⟨p, r, hl, d, hd, e⟩ := hM'
    have a := hup p r hl d hd
    rcases hre with h | ⟨p', r', hl', d', hd', e'⟩
    · omega
    · have := hM p' r' hl' d' hd'; omega
  subst hmx
  have hdata : ∀ k v, (k, v) ∈ sortByName info ↔ ∃ p r, Listed disk drel p r ∧ k = name p r ∧ v = (rows p r).map rowOf := by
    intro k v; rw [mem_sortByName, hi]
  have hne : sortByName info ≠ [] := by
    obtain ⟨p, r, hl, _⟩ := hM'
    intro h
    have := (hdata (name p r) _).2 ⟨p, r, hl, rfl, rfl⟩
    rw [h] at this; simp at this
  have hex : ∀ m, 4 ≤ m ∧ m ≤ mx → ∃ line, monthLine (sortByName info) m = .ok line ∧
      LineOf disk drel rows ((sortByName info).map Prod.fst) line m := fun m hm =>
    line_ok disk drel rows _ hdata hne m hm.1 (by omega) (fun p r hl d hd _ => ho p r hl d hd) fun p r hl => hf p r hl m hm.1
  let g : ℤ → Text := fun m => match monthLine (sortByName info) m with | .ok c => c | .error _ => []
  have hgm : ∀ m ∈ monthRange mx, monthLine (sortByName info) m = .ok (g m) := by
    intro m hm
    obtain ⟨line, hl, _⟩ := hex m ((mem_monthRange _ _).1 hm)
    simp only [g, hl]
  refine ⟨headerLine ((sortByName info).map Prod.fst), (monthRange mx).map g, (sortByName info).map Prod.fst, ?_,
    head_ok disk drel rows info hn hi h21, by rw [List.length_map, monthRange_length], ?_⟩
  · unfold monthsIndex
    rw [h1]
    simp only [monthLines_ok _ g _ hgm]
  · intro m h4 hm
    obtain ⟨line, hl, hL⟩ := hex m ⟨h4, hm⟩
    refine ⟨line, ?_, hL⟩
    rw [List.getElem?_map, monthRange_get mx m h4 hm]
    simp only [Option.map_some, g, hl]

/-- **When it stops.** A month that a dataset has twice, or the only line of a date file, ends the program with an
exception: the months before are written, this one and all later months are not. -/
theorem index_stops (disk : Disk) (drel : List Text) (rows : Text → Text → List Dated) (m0 : ℤ)
    (hg : ∀ p r, Listed disk drel p r → ∃ f, disk p r = some f ∧ DateFile f (rows p r) ∧ rows p r ≠ [])
    (h4 : 4 ≤ m0) (h9 : m0 ≤ 1000) (h21 : ∀ p r, Listed disk drel p r → (name p r).length ≤ 21)
    (ho : ∀ p r, Listed disk drel p r → ∀ d ∈ rows p r, Ordinary d)
    (hf : ∀ p r, Listed disk drel p r → ∀ m, 4 ≤ m → m < m0 → Fits (rows p r) m)
    (hbad : ∃ p r, Listed disk drel p r ∧ ¬ Fits (rows p r) m0) :
    ∃ header lines names e, monthsIndex disk drel = (header :: lines, some e) ∧ HeadOf disk drel names header ∧
      lines.length = (m0 - 4).toNat ∧
      ∀ m, 4 ≤ m → m < m0 → ∃ line, lines[(m - 4).toNat]? = some line ∧ LineOf disk drel rows names line m := by
  obtain ⟨info, mx, h1, hn, hi, hmx0, hup, hre⟩ := readAll_ok disk drel rows hg
  obtain ⟨p0, r0, hl0, hb0⟩ := hbad
  have hm0 : m0 ≤ mx := by
    by_contra hlt
    apply hb0
    have hnone : ∀ d ∈ rows p0 r0, d.mon ≠ m0 := by
      intro d hd he
      have := hup p0 r0 hl0 d hd; omega
    refine ⟨?_, fun _ => hnone⟩
    have : (rows p0 r0).filter (fun d => d.mon = m0) = [] := by
      rw [List.filter_eq_nil_iff]
      intro d hd
      simpa using hnone d hd
    rw [this]; simp
  have hdata : ∀ k v, (k, v) ∈ sortByName info ↔ ∃ p r, Listed disk drel p r ∧ k = name p r ∧ v = (rows p r).map rowOf := by
    intro k v; rw [mem_sortByName, hi]
  have hne : sortByName info ≠ [] := by
    intro h
    have := (hdata (name p0 r0) _).2 ⟨p0, r0, hl0, rfl, rfl⟩
    rw [h] at this; simp at this
  have hex : ∀ m, 4 ≤ m ∧ m < m0 → ∃ line, monthLine (sortByName info) m = .ok line ∧
      LineOf disk drel rows ((sortByName info).map Prod.fst) line m := fun m hm =>
    line_ok disk drel rows _ hdata hne m hm.1 (by omega) (fun p r hl d hd _ => ho p r hl d hd)
      fun p r hl => hf p r hl m hm.1 hm.2
  let g : ℤ → Text := fun m => match monthLine (sortByName info) m with | .ok c => c | .error _ => []
  have hgm : ∀ m ∈ monthRange (m0 - 1), monthLine (sortByName info) m = .ok (g m) := by
    intro m hm
    have hm := (mem_monthRange _ _).1 hm
    obtain ⟨line, hl, _⟩ := hex m ⟨hm.1, by omega⟩
    simp only [g, hl]
  obtain ⟨e, he⟩ := line_error disk drel rows _ hdata m0 p0 r0 hl0 hb0
  obtain ⟨rest, hrest⟩ := monthRange_split mx m0 h4 hm0
  refine ⟨headerLine ((sortByName info).map Prod.fst), (monthRange (m0 - 1)).map g, (sortByName info).map Prod.fst, e, ?_,
    head_ok disk drel rows info hn hi h21, ?_, ?_⟩
  · unfold monthsIndex
    rw [h1]
    simp only [hrest, monthLines_error _ g _ m0 e rest hgm he]
  · rw [List.length_map, monthRange_length]; omega
  · intro m h4 hm
    obtain ⟨line, hl, hL⟩ := hex m ⟨h4, hm⟩
    refine ⟨line, ?_, hL⟩
    rw [List.getElem?_map, monthRange_get (m0 - 1) m h4 (by omega)]
    simp only [Option.map_some, g, hl]

/-- **A date file without lines** (an index without data files): the program raises, and the index has been emptied. -/
theorem index_empty_file (disk : Disk) (drel : List Text) (rows : Text → Text → List Dated)
    (hg : ∀ p r, Listed disk drel p r → ∃ f, disk p r = some f ∧ DateFile f (rows p r))
    (he : ∃ p r, Listed disk drel p r ∧ rows p r = []) : monthsIndex disk drel = ([], some .value) := by
  have key : ∀ (Q : List (Text × Text)) (s : List (Text × List Row) × ℤ), (∀ q ∈ Q, q.1 ∈ centers ∧ q.2 ∈ drel) →
      (∃ q ∈ Q, (disk q.1 q.2).isSome ∧ rows q.1 q.2 = []) → Q.foldlM (readOne disk) s = .error .value := by
    intro Q
    induction Q with
    | nil => intro s _ h; obtain ⟨q, hq, _⟩ := h; simp at hq
    | cons q Q ih =>
      intro s hQ h
      rw [List.foldlM_cons]
      have hc := hQ q (by simp)
      cases hd : disk q.1 q.2 with
      | none =>
        have h1 : readOne disk s q = .ok s := by unfold readOne; rw [hd]
        rw [h1]
        refine ih s (fun x hx => hQ x (by simp [hx])) ?_
        obtain ⟨q', hq', h'⟩ := h
        rcases List.mem_cons.1 hq' with rfl | hq'
        · rw [hd] at h'; simp at h'
        · exact ⟨q', hq', h'⟩
      | some f =>
        obtain ⟨f', hf', hdf⟩ := hg q.1 q.2 ⟨hc.1, hc.2, by rw [hd]; rfl⟩
        rw [hd] at hf'
        cases hf'
        cases hr : rows q.1 q.2 with
        | nil =>
          have h1 : readOne disk s q = .error .value := by
            unfold readOne
            rw [hd]
            dsimp only
            rw [loadDates_dated f _ hdf, hr]
            rfl
          rw [h1]; rfl
        | cons d t =>
          obtain ⟨mx, hmx, _⟩ := max_spec (((rows q.1 q.2).map rowOf).map Row.mon) (by rw [hr]; simp)
          obtain ⟨s', h1⟩ : ∃ s', readOne disk s q = .ok s' := by
            unfold readOne
            rw [hd]
            dsimp only
            rw [loadDates_dated f _ hdf]
            dsimp only
            rw [hmx]
            exact ⟨_, rfl⟩
          rw [h1]
          refine ih s' (fun x hx => hQ x (by simp [hx])) ?_
          obtain ⟨q', hq', h'⟩ := h
          rcases List.mem_cons.1 hq' with rfl | hq'
          · rw [hr] at h'; simp at h'
          · exact ⟨q', hq', h'⟩
  unfold monthsIndex readAll
  obtain ⟨p, r, hl, hr⟩ := he
  rw [key _ _ (fun q hq => (mem_pairs drel q).1 hq) ⟨(p, r), (mem_pairs _ _).2 ⟨hl.1, hl.2.1⟩, hl.2.2, hr⟩]

end Verif.MonthsIndex
