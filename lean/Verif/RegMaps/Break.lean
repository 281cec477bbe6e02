import Verif.RegMaps.Props2

/-!
# C94: maps of two trends that meet at a month
-/
namespace Verif.RegMaps
open Verif.TimeSeries Finset

theorem break_ok (lib : Lib) (disk : List Char → Option InMap) (j : Job) (B : ℕ) (cycles : List ℚ) (files : List Out)
    (h : piecewiseMaps lib disk j B (some cycles) = .ok files) :
    ∃ suffix g cell, input disk j = .ok (suffix, g) ∧ (B : ℤ) ∈ g.month ∧
      cells g (breakCell lib g (g.month.idxOf (B : ℤ)) cycles (plan breakPlan cycles)) = .ok cell ∧
      files = coefFiles j suffix (plan breakPlan cycles) (spans j B) cell ++
            ampFiles j suffix [] (plan breakPlan cycles) 3 cell ++ fitFiles j suffix ['p', 'x', '1'] cell := by
  unfold piecewiseMaps at h
  cases hi : input disk j with
  | error e => rw [hi] at h; cases h
  | ok sg =>
    obtain ⟨suffix, g⟩ := sg
    rw [hi] at h
    simp only at h
    by_cases hb : (B : ℤ) ∉ g.month
    · rw [if_pos hb] at h; cases h
    · rw [if_neg hb] at h
      cases hc : cells g (breakCell lib g (g.month.idxOf (B : ℤ)) cycles (plan breakPlan cycles)) with
      | error e => rw [hc] at h; cases h
      | ok cell =>
        rw [hc] at h
        cases h
        exact ⟨suffix, g, cell, rfl, not_not.1 hb, hc, rfl⟩

/-- the position of the month of the break -/
theorem break_month (disk : List Char → Option InMap) (j : Job) (suffix : List Char) (B : ℕ) (xs : List InMap)
    (l : List (ℕ × InMap)) (nlat nlon : ℕ) (hst : Stored disk j suffix xs) (hz : List.Perm l ((months j).zip xs))
    (hm : List.Perm (l.map (·.1)) (months j)) :
    ((B : ℤ) ∈ (gridFrom nlat nlon l).month ↔ B ∈ months j) ∧
    ((B : ℤ) ∈ (gridFrom nlat nlon l).month → ∃ (i : ℕ) (hi : i < l.length) (x : InMap),
      (gridFrom nlat nlon l).month.idxOf (B : ℤ) = i ∧ l[i] = (B, x) ∧ x ∈ xs ∧ disk (inName j suffix B) = some x) := by
  have hnd : (months j).Nodup := (months_spec j).1.imp fun h => by omega
  have hmonth : (gridFrom nlat nlon l).month = l.map fun m => (m.1 : ℤ) := by
    change Time.adjustMonths _ = _
    refine Time.adjustMonths_nodup _ ?_
    have : (l.map fun m => (m.1 : ℤ)) = (l.map (·.1)).map (fun n : ℕ => (n : ℤ)) := by rw [List.map_map]; rfl
    rw [this]
    exact ((hm.nodup_iff).2 hnd).map Nat.cast_injective
  constructor
  · rw [hmonth, ← hm.mem_iff]
    simp
  · intro hb
    rw [hmonth] at hb ⊢
    have hi := List.idxOf_lt_length_iff.2 hb
    have hi' : (l.map fun m => (m.1 : ℤ)).idxOf (B : ℤ) < l.length := by simpa using hi
    have hg : (l.map fun m => (m.1 : ℤ))[(l.map fun m => (m.1 : ℤ)).idxOf (B : ℤ)] = (B : ℤ) := List.getElem_idxOf hi
    rw [List.getElem_map] at hg
    have hB : (l[(l.map fun m => (m.1 : ℤ)).idxOf (B : ℤ)]).1 = B := by exact_mod_cast hg
    have hmem : l[(l.map fun m => (m.1 : ℤ)).idxOf (B : ℤ)] ∈ (months j).zip xs := hz.mem_iff.1 (List.getElem_mem hi')
    refine ⟨_, hi', (l[(l.map fun m => (m.1 : ℤ)).idxOf (B : ℤ)]).2, rfl, ?_, (List.of_mem_zip hmem).2, ?_⟩
    · exact Prod.ext hB rfl
    · obtain ⟨q, hq, e⟩ := List.mem_iff_getElem.1 hmem
      have hq1 : q < (months j).length := by simp at hq; omega
      have hq2 : q < xs.length := by simp at hq; omega
      rw [List.getElem_zip] at e
      unfold Stored at hst
      have := congrArg (fun L => L[q]?) hst
      simp only [List.getElem?_map, List.getElem?_eq_getElem hq1, List.getElem?_eq_getElem hq2, Option.map_some,
        Option.some.injEq] at this
      rw [← e] at hB ⊢
      simp only at hB ⊢
      rw [← hB]; exact this

/-- the functions of the fit with a break -/
noncomputable def bentFns (tb : ℝ) (ws : List Wave) : List (ℝ → ℝ) :=
  [fun _ => 1, fun t => t, fun t => max 0 (t - tb)] ++
    (ws.flatMap fun w => [Comp.sine w, .cosine w]).map fun c : Comp => c.value 0

theorem waves_length (ws : List Wave) : (ws.flatMap fun w => [Comp.sine w, .cosine w]).length = 2 * ws.length :=
  flatMap_pair_length _ _ ws

theorem bentFns_length (tb : ℝ) (ws : List Wave) : (bentFns tb ws).length = 3 + 2 * ws.length := by
  unfold bentFns
  rw [List.length_append, List.length_map, waves_length]
  rfl

/-- from the change of slope to the second slope -/
def raw (v : ℕ → ℝ) : ℕ → ℝ := fun k => if k = 2 then v 2 - v 1 else v k

theorem bent_sum (tb : ℝ) (ws : List Wave) (v : ℕ → ℝ) :
    (fun t => ∑ k ∈ range (bentFns tb ws).length, raw v k * ((bentFns tb ws).getD k 0) t) = bent tb ws v := by
  funext t
  rw [bentFns_length, Finset.sum_range_add]
  unfold bent
  congr 1
  · rw [Finset.sum_range_succ, Finset.sum_range_succ, Finset.sum_range_one]
    have e0 : raw v 0 = v 0 := rfl
    have e1 : raw v 1 = v 1 := rfl
    have e2 : raw v 2 = v 2 - v 1 := rfl
    have f0 : (bentFns tb ws).getD 0 0 = fun _ => 1 := rfl
    have f1 : (bentFns tb ws).getD 1 0 = fun t => t := rfl
    have f2 : (bentFns tb ws).getD 2 0 = fun t => max 0 (t - tb) := rfl
    rw [e0, e1, e2, f0, f1, f2]
    simp only
    split_ifs with hle
    · rw [max_eq_left (by linarith)]; ring
    · rw [max_eq_right (by linarith)]; ring
  · refine Finset.sum_congr rfl fun k hk => ?_
    rw [mem_range] at hk
    have e : raw v (3 + k) = v (3 + k) := by unfold raw; rw [if_neg (by omega)]
    rw [e]
    congr 1
    unfold bentFns
    simp only [List.getD_eq_getElem?_getD]
    rw [List.getElem?_append_right (by simp)]
    simp only [List.length_cons, List.length_nil, Nat.reduceAdd, Nat.add_sub_cancel_left]
    have hk' : k < (ws.flatMap fun w => [Comp.sine w, .cosine w]).length := by rw [waves_length]; exact hk
    rw [List.getElem?_map, List.getElem?_eq_getElem hk']
    rfl

/-- columns of the fit with a break -/
theorem break_cols (l : List (ℕ × InMap)) (hs : l.Pairwise fun a b => a.2.time ≤ b.2.time) (i : ℕ) (hi : i < l.length)
    (cycles : List ℚ) :
    piecewiseCols (fun i : Fin l.length => (l.get i).2.time) i (l[i]).2.time
      ((remaining (plan breakPlan cycles) cycles).map fun c : ℚ => (c : ℝ))
      (termsOf (fun i : Fin l.length => (l.get i).2.time) (plan breakPlan cycles)) =
      (bentFns (l[i]).2.time (fitted cycles)).map fun f q => f (l.get q).2.time := by
  unfold piecewiseCols bentFns
  rw [List.append_assoc, wave_cols _ 0 breakPlan cycles rfl rfl, List.map_append, List.map_map]
  congr 1
  simp only [List.map_cons, List.map_nil, List.cons.injEq, and_true, pow_zero, pow_one, true_and]
  funext q
  unfold changeCol
  rw [List.pairwise_iff_getElem] at hs
  split_ifs with h
  · rw [max_eq_right]
    rcases Nat.lt_or_eq_of_le h with h | h
    · have := hs i q.1 hi q.2 h
      simp only [List.get_eq_getElem]; linarith
    · simp only [List.get_eq_getElem, h]; linarith
  · rw [max_eq_left]
    have := hs q.1 i q.2 hi (by omega)
    simp only [List.get_eq_getElem]; linarith

theorem at_setTwo {k : ℕ} (v : Fin k → ℝ) (hk : 2 < k) (y : ℝ) (i : ℕ) : at' (setTwo v y) i = if i = 2 then y else at' v i := by
  unfold at' setTwo
  by_cases hi : i = 2
  · subst hi; simp [hk]
  · by_cases h : i < k <;> simp [h, hi]

/-- the fit of a cell with a break -/
theorem breakCell_spec (lib : Lib) (xs : List InMap) (l : List (ℕ × InMap)) (nlat nlon : ℕ) (hl : List.Perm (l.map (·.2)) xs)
    (hs : l.Pairwise fun a b => a.2.time ≤ b.2.time) (i : ℕ) (hi : i < l.length) (cycles : List ℚ) (a b : ℕ)
    (x : (k : ℕ) × Result (gridFrom nlat nlon l).n k)
    (h : breakCell lib (gridFrom nlat nlon l) i cycles (plan breakPlan cycles) a b = some x) :
    Best xs a b (3 + 2 * (fitted cycles).length) (bent (l[i]).2.time (fitted cycles)) (cellOf x).beta ∧
    (3 + 2 * (fitted cycles).length < xs.length → ∃ (G : ℕ → ℕ → ℝ) (q : ℝ), q = lib.tppf 0.975 ((xs.length : ℝ) - (3 + 2 * (fitted cycles).length)) ∧
      NormalInverse xs (3 + 2 * (fitted cycles).length) (fun m => (bentFns (l[i]).2.time (fitted cycles)).getD m 0) G ∧
      (cellOf x).SSE = misfit xs a b (bent (l[i]).2.time (fitted cycles) (cellOf x).beta) ∧
      ∀ k < 3 + 2 * (fitted cycles).length, ∃ e1 e2 ek : ℝ,
        e1 = q * Real.sqrt ((cellOf x).SSE / ((xs.length : ℝ) - (3 + 2 * (fitted cycles).length)) * G 1 1) ∧
        e2 = q * Real.sqrt ((cellOf x).SSE / ((xs.length : ℝ) - (3 + 2 * (fitted cycles).length)) * G 2 2) ∧
        ek = q * Real.sqrt ((cellOf x).SSE / ((xs.length : ℝ) - (3 + 2 * (fitted cycles).length)) * G k k) ∧
        (cellOf x).error k = if k = 2 then Real.sqrt (e1 ^ 2 + e2 ^ 2) else ek) := by
  unfold breakCell at h
  obtain ⟨nco, tco, hbr, r, hr, rfl⟩ := piecewise_unfold h
  have hbr' : nco = i ∧ tco = (l[i]).2.time := by
    unfold breakOf at hbr
    simp only at hbr
    rw [dif_pos (show i < (gridFrom nlat nlon l).n from hi)] at hbr
    cases hbr
    exact ⟨rfl, rfl⟩
  obtain ⟨rfl, rfl⟩ := hbr'
  obtain ⟨r0, hr0, hst, hbeta, hcov, hmse, -, -, herr⟩ := (piecewiseFit_core lib.erf lib.tppf lib.eps _ _ false (.scalar 0) fitOpts).2 r hr
  have hcols := break_cols l hs nco hi cycles
  have hlen : 2 < (piecewiseCols (gridFrom nlat nlon l).time nco (l[nco]).2.time
      ((remaining (plan breakPlan cycles) cycles).map fun c : ℚ => (c : ℝ))
      (termsOf (gridFrom nlat nlon l).time (plan breakPlan cycles))).length := by
    have := congrArg List.length hcols
    rw [List.length_map, bentFns_length] at this
    change 2 < (piecewiseCols (fun i : Fin l.length => (l.get i).2.time) nco (l[nco]).2.time
      ((remaining (plan breakPlan cycles) cycles).map fun c : ℚ => (c : ℝ))
      (termsOf (fun i : Fin l.length => (l.get i).2.time) (plan breakPlan cycles))).length
    omega
  have hb := best_of_fit l xs hl a b (bentFns (l[nco]).2.time (fitted cycles)) _ hcols lib.erf lib.tppf lib.eps 3 fitOpts r0 hr0
  have hraw : raw (at' r.beta) = at' r0.beta := by
    funext k
    rw [hbeta]
    unfold raw
    rw [at_setTwo _ hlen, at_setTwo _ hlen, at_setTwo _ hlen]
    by_cases hk : k = 2
    · subst hk; simp
    · rw [if_neg hk, if_neg hk]
  have hbest : Best xs a b (3 + 2 * (fitted cycles).length) (bent (l[nco]).2.time (fitted cycles)) (at' r.beta) := by
    constructor
    · intro u
      rw [← bent_sum, ← bent_sum, hraw]
      exact hb.least (raw u)
    · intro u hu k hk
      rw [← bent_sum, ← bent_sum, hraw] at hu
      have := hb.unique (raw u) hu
      rw [bentFns_length] at this
      have h1 := (this 1 (by omega)).trans (congrFun hraw 1).symm
      have h2 := (this 2 (by omega)).trans (congrFun hraw 2).symm
      have hk' := (this k hk).trans (congrFun hraw k).symm
      unfold raw at h1 h2 hk'
      by_cases hk2 : k = 2
      · subst hk2
        simp at h1 h2
        linarith
      · rw [if_neg hk2, if_neg hk2] at hk'
        exact hk'
  refine ⟨hbest, fun hn => ?_⟩
  obtain ⟨G, hG, hM⟩ := measures_of_fit l xs hl a b (bentFns (l[nco]).2.time (fitted cycles)) _ hcols lib.erf lib.tppf lib.eps 3 r0
    (by rw [bentFns_length]; exact hn) hr0
  have hSSE : (cellOf ⟨_, r⟩).SSE = (cellOf ⟨_, r0⟩).SSE := by
    simp only [cellOf]
    rw [hmse, hst]
  have hmf : misfit xs a b (fun t => ∑ k ∈ range (bentFns (l[nco]).2.time (fitted cycles)).length,
      at' r0.beta k * ((bentFns (l[nco]).2.time (fitted cycles)).getD k 0) t) =
      misfit xs a b (bent (l[nco]).2.time (fitted cycles) (at' r.beta)) := by
    rw [← bent_sum, hraw]
  have hsse : (cellOf ⟨_, r⟩).SSE = misfit xs a b (bent (l[nco]).2.time (fitted cycles) (at' r.beta)) :=
    hSSE.trans (hM.sse.trans hmf)
  have hl2 : (((bentFns (l[nco]).2.time (fitted cycles)).length : ℕ) : ℝ) = 3 + 2 * (fitted cycles).length := by
    rw [bentFns_length]; push_cast; ring
  have herror : ∀ k < 3 + 2 * (fitted cycles).length, (cellOf ⟨_, r0⟩).error k =
      lib.tppf 0.975 ((xs.length : ℝ) - (3 + 2 * (fitted cycles).length)) *
        Real.sqrt ((cellOf ⟨_, r⟩).SSE / ((xs.length : ℝ) - (3 + 2 * (fitted cycles).length)) * G k k) := by
    intro k hk
    refine (hM.error k (by rw [bentFns_length]; exact hk)).trans ?_
    rw [hsse, hl2]
    exact congrArg (fun S => lib.tppf 0.975 ((xs.length : ℝ) - (3 + 2 * (fitted cycles).length)) *
      Real.sqrt (S / ((xs.length : ℝ) - (3 + 2 * (fitted cycles).length)) * G k k)) hmf
  rw [bentFns_length] at hG
  refine ⟨G, _, rfl, hG, hsse, fun k hk => ⟨_, _, _, rfl, rfl, rfl, ?_⟩⟩
  have hcomb : (cellOf ⟨_, r⟩).error k = if k = 2 then
      Real.sqrt ((cellOf ⟨_, r0⟩).error 1 ^ 2 + (cellOf ⟨_, r0⟩).error 2 ^ 2) else (cellOf ⟨_, r0⟩).error k := by
    simp only [cellOf]
    rw [herr fun e he => by cases he; rfl]
    unfold combine
    rw [at_setTwo _ hlen]
  rw [hcomb]
  by_cases hk2 : k = 2
  · rw [if_pos hk2, if_pos hk2, herror 1 (by omega), herror 2 (by omega)]
  · rw [if_neg hk2, if_neg hk2, herror k hk]

/-- the files of the fit with a break -/
theorem break_layout (j : Job) (suffix : List Char) (B : ℕ) (cycles : List ℚ) (cell : ℕ → ℕ → Cell) (k : ℕ)
    (hk : k < 3 + 2 * (labelled cycles).length) :
    (coefFiles j suffix (plan breakPlan cycles) (spans j B) cell ++
      ampFiles j suffix [] (plan breakPlan cycles) 3 cell ++ fitFiles j suffix ['p', 'x', '1'] cell)[k]? = some
      ⟨outName j suffix (if k = 0 then ['x', '0'] else if k < 3 then ['p', 'x', '1'] else
          ((((labelled cycles).flatMap fun w => [Comp.sine w, .cosine w]).getD (k - 3) (.power 0)).label))
          (if k = 2 then B else j.START) (if k = 1 then B else j.END),
        j.unitsName ++ (if k = 1 ∨ k = 2 then " yr^-1".toList else []),
        fun a b => (cell a b).beta k, some fun a b => (cell a b).error k⟩ := by
  have hco : (plan breakPlan cycles).coef = [['x', '0'], ['p', 'x', '1'], ['p', 'x', '1']] ++
      ((labelled cycles).flatMap fun w => [Comp.sine w, .cosine w]).map Comp.label := (plan_eq _ cycles).1
  have hun : (plan breakPlan cycles).unit = [[], " yr^-1".toList, " yr^-1".toList] ++
      List.replicate (2 * (labelled cycles).length) [] := (plan_eq _ cycles).2.2.1
  have hlen : (plan breakPlan cycles).coef.length = 3 + 2 * (labelled cycles).length := by
    rw [hco, List.length_append, List.length_map, waves_length]; rfl
  rw [List.append_assoc, List.getElem?_append_left (by unfold coefFiles; rw [List.length_map, List.length_range, hlen]; exact hk),
    coefFiles_get _ _ _ _ _ _ (by rw [hlen]; exact hk)]
  have e1 : (plan breakPlan cycles).coef.getD k [] = if k = 0 then ['x', '0'] else if k < 3 then ['p', 'x', '1'] else
          ((((labelled cycles).flatMap fun w => [Comp.sine w, .cosine w]).getD (k - 3) (.power 0)).label) := by
    rw [hco]
    rcases (by omega : k = 0 ∨ k = 1 ∨ k = 2 ∨ 3 ≤ k) with rfl | rfl | rfl | h3
    · rfl
    · rfl
    · rfl
    · rw [if_neg (by omega), if_neg (by omega), List.getD_eq_getElem?_getD, List.getElem?_append_right (by simpa using h3)]
      have : k - 3 < ((labelled cycles).flatMap fun w => [Comp.sine w, .cosine w]).length := by rw [waves_length]; omega
      simp only [List.length_cons, List.length_nil, Nat.reduceAdd, List.getElem?_map, List.getD_eq_getElem?_getD]
      rw [List.getElem?_eq_getElem this]
      rfl
  have e2 : (plan breakPlan cycles).unit.getD k [] = if k = 1 ∨ k = 2 then " yr^-1".toList else [] := by
    rw [hun]
    rcases (by omega : k = 0 ∨ k = 1 ∨ k = 2 ∨ 3 ≤ k) with rfl | rfl | rfl | h3
    · rfl
    · rfl
    · rfl
    · rw [if_neg (by omega), List.getD_eq_getElem?_getD, List.getElem?_append_right (by simpa using h3), List.getElem?_replicate]
      split <;> rfl
  rw [e1, e2]
  rfl

/-- C94: maps of two trends: the month of the break is one of the months; with seasonal cycles first and then tides, the first
three files hold, of the only least squares fit of two lines that meet at the date of the map of the break, and waves: the value
of the first line at year 0, the slope before and the slope after; then follow sines and cosines with their labels.  The two
slopes have the same label but other months in the name -/
theorem break_right (lib : Lib) (disk : List Char → Option InMap) (j : Job) (B : ℕ) (S T : List ℚ)
    (hS : ∀ c ∈ S, Season c) (hT : ∀ c ∈ T, Tidal c) (files : List Out)
    (h : piecewiseMaps lib disk j B (some (S ++ T)) = .ok files) :
    B ∈ months j ∧ ∃ suffix xs xb, suffixOf j.DATAFORM = .ok suffix ∧ Stored disk j suffix xs ∧
      disk (inName j suffix B) = some xb ∧
      (∀ k < 3 + 2 * (labelled (S ++ T)).length, ∃ f, files[k]? = some f ∧
        f.name = outName j suffix (if k = 0 then ['x', '0'] else if k < 3 then ['p', 'x', '1'] else
          ((((labelled (S ++ T)).flatMap fun w => [Comp.sine w, .cosine w]).getD (k - 3) (.power 0)).label))
          (if k = 2 then B else j.START) (if k = 1 then B else j.END) ∧
        f.units = j.unitsName ++ (if k = 1 ∨ k = 2 then " yr^-1".toList else [])) ∧
      ∀ x0 ∈ xs, ∀ a < x0.nlat, ∀ b < x0.nlon,
        Best xs a b (3 + 2 * (labelled (S ++ T)).length) (bent xb.time (labelled (S ++ T))) (fun k => mapAt files k a b) := by
  obtain ⟨suffix, g, cell, hi, hB, hc, rfl⟩ := break_ok lib disk j B (S ++ T) files h
  obtain ⟨hs, -, xs, l, nlat, nlon, hst, -, rfl, hz, hl, hm, hsort, hsame⟩ := input_ok disk j suffix g hi
  obtain ⟨hiff, hpos⟩ := break_month disk j suffix B xs l nlat nlon hst hz hm
  obtain ⟨i, hilt, xb, hidx, hli, -, hdisk⟩ := hpos hB
  refine ⟨hiff.1 hB, suffix, xs, xb, hs, hst, hdisk, fun k hk => ?_, fun x0 hx0 a ha b hb => ?_⟩
  · exact ⟨_, break_layout j suffix B (S ++ T) cell k hk, rfl, rfl⟩
  · obtain ⟨e1, e2⟩ := hsame x0 hx0
    obtain ⟨x, hx, hcell⟩ := cells_ok _ _ cell hc a b (by rw [e1] at ha; exact ha) (by rw [e2] at hb; exact hb)
    rw [hidx] at hx
    have hb := (breakCell_spec lib xs l nlat nlon hl hsort i hilt (S ++ T) a b x hx).1
    rw [hli] at hb
    rw [← labelled_eq_fitted S T hS hT] at hb
    have heq : ∀ k < 3 + 2 * (labelled (S ++ T)).length, mapAt (coefFiles j suffix (plan breakPlan (S ++ T)) (spans j B) cell ++
        ampFiles j suffix [] (plan breakPlan (S ++ T)) 3 cell ++ fitFiles j suffix ['p', 'x', '1'] cell) k a b =
        (cellOf x).beta k := by
      intro k hk
      unfold mapAt
      rw [break_layout j suffix B (S ++ T) cell k hk]
      simp only
      rw [hcell]
    have hbent : bent xb.time (labelled (S ++ T)) (fun k => mapAt (coefFiles j suffix (plan breakPlan (S ++ T)) (spans j B) cell ++
        ampFiles j suffix [] (plan breakPlan (S ++ T)) 3 cell ++ fitFiles j suffix ['p', 'x', '1'] cell) k a b) =
        bent xb.time (labelled (S ++ T)) (cellOf x).beta := by
      funext t
      unfold bent
      beta_reduce
      rw [heq 0 (by omega), heq 1 (by omega), heq 2 (by omega)]
      congr 1
      refine Finset.sum_congr rfl fun k hk => ?_
      rw [heq (3 + k) (by have := mem_range.1 hk; omega)]
    exact ⟨fun u => by rw [hbent]; exact hb.least u, fun u hu k hk => by
      rw [hbent] at hu; rw [heq k hk]; exact hb.unique u hu k hk⟩

/-- C94: for more maps than coefficients, the errors are 95 percent confidence intervals, except for the second slope: the
error of its map is the root of the sum of squares of the errors of the first slope and of the change of slope, as if these
were not correlated -/
theorem break_errors (lib : Lib) (disk : List Char → Option InMap) (j : Job) (B : ℕ) (S T : List ℚ)
    (hS : ∀ c ∈ S, Season c) (hT : ∀ c ∈ T, Tidal c) (files : List Out)
    (h : piecewiseMaps lib disk j B (some (S ++ T)) = .ok files) :
    ∃ suffix xs xb K, K = 3 + 2 * (labelled (S ++ T)).length ∧ suffixOf j.DATAFORM = .ok suffix ∧ Stored disk j suffix xs ∧
      disk (inName j suffix B) = some xb ∧ (K < xs.length → ∀ x0 ∈ xs, ∀ a < x0.nlat, ∀ b < x0.nlon, ∃ w G M e2,
        Best xs a b K (bent xb.time (labelled (S ++ T))) w ∧
        NormalInverse xs K (fun m => (bentFns xb.time (labelled (S ++ T))).getD m 0) G ∧
        M = misfit xs a b (bent xb.time (labelled (S ++ T)) w) / ((xs.length : ℝ) - K) ∧
        (∀ k < K, k ≠ 2 → errorAt files k a b = lib.tppf 0.975 ((xs.length : ℝ) - K) * Real.sqrt (M * G k k)) ∧
        e2 = lib.tppf 0.975 ((xs.length : ℝ) - K) * Real.sqrt (M * G 2 2) ∧
        errorAt files 2 a b = Real.sqrt (errorAt files 1 a b ^ 2 + e2 ^ 2)) := by
  obtain ⟨suffix, g, cell, hi, hB, hc, rfl⟩ := break_ok lib disk j B (S ++ T) files h
  obtain ⟨hs, -, xs, l, nlat, nlon, hst, -, rfl, hz, hl, hm, hsort, hsame⟩ := input_ok disk j suffix g hi
  obtain ⟨hiff, hpos⟩ := break_month disk j suffix B xs l nlat nlon hst hz hm
  obtain ⟨i, hilt, xb, hidx, hli, -, hdisk⟩ := hpos hB
  refine ⟨suffix, xs, xb, _, rfl, hs, hst, hdisk, fun hn x0 hx0 a ha b hb => ?_⟩
  obtain ⟨e1, e2⟩ := hsame x0 hx0
  obtain ⟨x, hx, hcell⟩ := cells_ok _ _ cell hc a b (by rw [e1] at ha; exact ha) (by rw [e2] at hb; exact hb)
  rw [hidx] at hx
  obtain ⟨h1, h2⟩ := breakCell_spec lib xs l nlat nlon hl hsort i hilt (S ++ T) a b x hx
  rw [hli, ← labelled_eq_fitted S T hS hT] at h1 h2
  obtain ⟨G, q, hq, hG, hsse, herr⟩ := h2 hn
  have heq : ∀ k < 3 + 2 * (labelled (S ++ T)).length, errorAt (coefFiles j suffix (plan breakPlan (S ++ T)) (spans j B) cell ++
      ampFiles j suffix [] (plan breakPlan (S ++ T)) 3 cell ++ fitFiles j suffix ['p', 'x', '1'] cell) k a b =
      (cellOf x).error k := by
    intro k hk
    unfold errorAt
    rw [break_layout j suffix B (S ++ T) cell k hk]
    simp only
    rw [hcell]
  subst hq
  refine ⟨(cellOf x).beta, G, _, _, h1, hG, rfl, fun k hk hk2 => ?_, rfl, ?_⟩
  · obtain ⟨f1, f2, fk, -, -, hk3, he⟩ := herr k hk
    rw [heq k hk, he, if_neg hk2, hk3, hsse]
    push_cast
    rfl
  · obtain ⟨f1, f2, fk, hf1, hf2, -, he⟩ := herr 2 (by omega)
    obtain ⟨g1, g2, gk, -, -, hgk, he1⟩ := herr 1 (by omega)
    rw [heq 2 (by omega), heq 1 (by omega), he, he1, if_pos rfl, if_neg (by omega), hf1, hf2, hgk, hsse]
    push_cast
    rfl

/-- C94: amplitude and phase of each wave with a label; the file of the amplitude has no ending after the label of the wave -/
theorem break_waves (lib : Lib) (disk : List Char → Option InMap) (j : Job) (B : ℕ) (cycles : List ℚ) (files : List Out)
    (h : piecewiseMaps lib disk j B (some cycles) = .ok files) :
    ∃ suffix, suffixOf j.DATAFORM = .ok suffix ∧ ∀ f < (labelled cycles).length, ∃ A P : Out,
      files[3 + 2 * (labelled cycles).length + 2 * f]? = some A ∧
      files[3 + 2 * (labelled cycles).length + 2 * f + 1]? = some P ∧
      A.name = outName j suffix ((labelled cycles).getD f (.cycle 1)).label j.START j.END ∧
      P.name = outName j suffix (((labelled cycles).getD f (.cycle 1)).label ++ "_PHASE".toList) j.START j.END ∧
      A.units = j.unitsName ∧ P.units = "degrees".toList ∧
      ∀ a b, IsWave (mapAt files (3 + 2 * f) a b) (mapAt files (3 + 2 * f + 1) a b) (errorAt files (3 + 2 * f) a b)
        (errorAt files (3 + 2 * f + 1) a b) A P a b := by
  obtain ⟨suffix, g, cell, hi, hB, hc, rfl⟩ := break_ok lib disk j B cycles files h
  obtain ⟨hs, -⟩ := input_ok disk j suffix g hi
  have hamp : (plan breakPlan cycles).amp = (labelled cycles).map Wave.label := (plan_eq _ cycles).2.1
  have hco : (plan breakPlan cycles).coef = [['x', '0'], ['p', 'x', '1'], ['p', 'x', '1']] ++
      ((labelled cycles).flatMap fun w => [Comp.sine w, .cosine w]).map Comp.label := (plan_eq _ cycles).1
  have hcl : (coefFiles j suffix (plan breakPlan cycles) (spans j B) cell).length = 3 + 2 * (labelled cycles).length := by
    unfold coefFiles
    rw [List.length_map, List.length_range, hco, List.length_append, List.length_map, waves_length]; rfl
  have hal : (ampFiles j suffix [] (plan breakPlan cycles) 3 cell).length = 2 * (labelled cycles).length := by
    unfold ampFiles
    rw [flatMap_pair_length, List.length_zipIdx, hamp, List.length_map]
  refine ⟨suffix, hs, fun f hf => ?_⟩
  have hzip : (plan breakPlan cycles).amp.zipIdx[f]? = some (((labelled cycles).getD f (.cycle 1)).label, f) := by
    rw [List.getElem?_zipIdx, hamp, List.getElem?_map]
    simp [hf]
  have hpair := flatMap_pair (fun fi : List Char × ℕ => (⟨outName j suffix (fi.1 ++ []) j.START j.END, j.unitsName,
      fun a b => ampOf (cell a b) (3 + 2 * fi.2), some fun a b => ampError (cell a b) (3 + 2 * fi.2)⟩ : Out))
    (fun fi : List Char × ℕ => (⟨outName j suffix (fi.1 ++ "_PHASE".toList) j.START j.END, "degrees".toList,
      fun a b => phaseOf (cell a b) (3 + 2 * fi.2), some fun a b => phaseError (cell a b) (3 + 2 * fi.2)⟩ : Out))
      (plan breakPlan cycles).amp.zipIdx f
  rw [hzip] at hpair
  refine ⟨⟨outName j suffix (((labelled cycles).getD f (.cycle 1)).label ++ []) j.START j.END, j.unitsName,
      fun a b => ampOf (cell a b) (3 + 2 * f), some fun a b => ampError (cell a b) (3 + 2 * f)⟩,
    ⟨outName j suffix (((labelled cycles).getD f (.cycle 1)).label ++ "_PHASE".toList) j.START j.END, "degrees".toList,
      fun a b => phaseOf (cell a b) (3 + 2 * f), some fun a b => phaseError (cell a b) (3 + 2 * f)⟩,
    ?_, ?_, ?_, rfl, rfl, rfl, fun a b => ?_⟩
  · rw [List.append_assoc, List.getElem?_append_right (by rw [hcl]; omega), hcl,
      List.getElem?_append_left (by rw [hal]; omega), Nat.add_sub_cancel_left]
    exact hpair.1
  · rw [List.append_assoc, List.getElem?_append_right (by rw [hcl]; omega), hcl,
      List.getElem?_append_left (by rw [hal]; omega), Nat.add_assoc (3 + _), Nat.add_sub_cancel_left]
    exact hpair.2
  · simp only [List.append_nil]
  · unfold mapAt errorAt
    rw [break_layout j suffix B cycles cell (3 + 2 * f) (by omega), break_layout j suffix B cycles cell (3 + 2 * f + 1) (by omega)]
    exact isWave_cell _ _ _ _ _ _

/-- C94: without the month of the break among the months, or without an option for cycles, there are no maps -/
theorem break_fails (lib : Lib) (disk : List Char → Option InMap) (j : Job) (B : ℕ) (cycles : Option (List ℚ))
    (h : B ∉ months j ∨ cycles = none) (files : List Out) : piecewiseMaps lib disk j B cycles ≠ .ok files := by
  intro hf
  cases cycles with
  | none =>
    unfold piecewiseMaps at hf
    cases hi : input disk j with
    | error e => rw [hi] at hf; cases hf
    | ok x =>
      rw [hi] at hf
      simp only at hf
      split_ifs at hf
  | some cycles =>
    obtain ⟨suffix, g, cell, hi, hB, -, -⟩ := break_ok lib disk j B cycles files hf
    obtain ⟨-, -, xs, l, nlat, nlon, hst, -, rfl, hz, hl, hm, hsort, -⟩ := input_ok disk j suffix g hi
    have := (break_month disk j suffix B xs l nlat nlon hst hz hm).1.1 hB
    rcases h with h | h
    · exact h this
    · cases h

end Verif.RegMaps
