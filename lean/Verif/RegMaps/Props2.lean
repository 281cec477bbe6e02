import Verif.RegMaps.Waves

/-!
# C94: measures of fit, names, when the program succeeds
-/
namespace Verif.RegMaps
open Verif.TimeSeries Finset

/-! ## Errors and measures of fit -/

theorem labelled_le (cycles : List ℚ) : (labelled cycles).length ≤ (fitted cycles).length := by
  induction cycles with
  | nil => rfl
  | cons c r ih =>
    rw [labelled_cons]
    unfold fitted at ih ⊢
    rw [List.length_append, List.length_map] at ih
    rw [List.length_append, List.length_append, List.length_map, List.flatMap_cons, List.length_append]
    by_cases hs : Season c
    · rw [labelledOf_season hs, List.filter_cons_of_pos (by simpa using not_tidal_of_season hs)]
      simp only [List.length_cons, List.length_nil]
      omega
    · rw [labelledOf_other hs]
      have : ((r.filter fun c => near c = [])).length ≤ ((c :: r).filter fun c => near c = []).length := by
        rw [List.filter_cons]; split_ifs <;> simp
      omega

theorem curve_sum (cs : List Comp) (tbar : ℝ) (v : ℕ → ℝ) :
    (fun t => ∑ k ∈ range (cs.map fun c : Comp => c.value tbar).length, v k * ((cs.map fun c : Comp => c.value tbar).getD k 0) t) =
      curve tbar cs v := by
  funext t
  unfold curve
  rw [List.length_map]
  refine Finset.sum_congr rfl fun k hk => ?_
  rw [mem_range] at hk
  simp [hk]

/-- inverse of the normal matrix only depends on the functions that count -/
theorem NormalInverse.congr {xs : List InMap} {K : ℕ} {f g : ℕ → ℝ → ℝ} {G : ℕ → ℕ → ℝ} (h : NormalInverse xs K f G)
    (hfg : ∀ k < K, f k = g k) : NormalInverse xs K g G := by
  intro i hi k hk
  rw [← h i hi k hk]
  refine Finset.sum_congr rfl fun m hm => ?_
  rw [hfg k hk, hfg m (mem_range.1 hm)]

theorem fitCell_measures (lib : Lib) (xs : List InMap) (l : List (ℕ × InMap)) (nlat nlon : ℕ) (hl : List.Perm (l.map (·.2)) xs)
    (ORDER : ℕ) (cycles : List ℚ) (a b : ℕ) (x : (k : ℕ) × Result (gridFrom nlat nlon l).n k)
    (hn : (comps ORDER (fitted cycles)).length < xs.length)
    (h : fitCell lib (gridFrom nlat nlon l) ORDER cycles (plan (polyPlan ORDER) cycles) a b = some x) :
    ∃ G, NormalInverse xs (comps ORDER (fitted cycles)).length
        (fun m => ((comps ORDER (fitted cycles)).getD m (.power 0)).value (meanDate xs)) G ∧
      Measures xs a b (comps ORDER (fitted cycles)).length
        (misfit xs a b (curve (meanDate xs) (comps ORDER (fitted cycles)) (cellOf x).beta))
        (lib.tppf 0.975 ((xs.length : ℝ) - (comps ORDER (fitted cycles)).length)) G (cellOf x) := by
  unfold fitCell at h
  obtain ⟨trel, he, r, hr, rfl⟩ := regress_unfold h
  have ht : trel = meanDate xs := by
    rw [meanDate_eq l xs hl]
    simp only [epoch, Option.some.injEq] at he
    exact he.symm
  subst ht
  obtain ⟨G, h1, h2⟩ := measures_of_fit l xs hl a b ((comps ORDER (fitted cycles)).map fun c : Comp => c.value (meanDate xs)) _
    (by rw [fit_cols, List.map_map]; rfl) lib.erf lib.tppf lib.eps (ORDER + 1) r (by rw [List.length_map]; exact hn) hr
  rw [curve_sum] at h2
  rw [List.length_map] at h1 h2
  refine ⟨G, h1.congr fun k hk => ?_, h2⟩
  simp [hk]

/-- C94: for more maps than coefficients: the error of a coefficient is the half width of its 95 percent confidence interval;
the last four files are the sum of squares, the two information criteria and the adjusted coefficient of determination -/
theorem regress_measures (lib : Lib) (disk : List Char → Option InMap) (j : Job) (ORDER : ℕ) (cycles : List ℚ) (files : List Out)
    (h : regressMaps lib disk j ORDER (some cycles) = .ok files) :
    ∃ suffix xs, suffixOf j.DATAFORM = .ok suffix ∧ Stored disk j suffix xs ∧
      ∃ base K : ℕ, base = (comps ORDER (labelled cycles)).length + 2 * (labelled cycles).length ∧
      K = (comps ORDER (fitted cycles)).length ∧ files.length = base + 4 ∧
      (∀ i < 4, ∃ f, files[base + i]? = some f ∧ f.name = outName j suffix
        (["SSE_".toList, "AIC_".toList, "BIC_".toList, "R2Adj_".toList].getD i [] ++ 'x' :: num 0 ORDER) j.START j.END) ∧
      (K < xs.length → ∀ x0 ∈ xs, ∀ a < x0.nlat, ∀ b < x0.nlon, ∃ w G S,
        Best xs a b K (curve (meanDate xs) (comps ORDER (fitted cycles))) w ∧
        NormalInverse xs K (fun m => ((comps ORDER (fitted cycles)).getD m (.power 0)).value (meanDate xs)) G ∧
        S = misfit xs a b (curve (meanDate xs) (comps ORDER (fitted cycles)) w) ∧
        (∀ k < (comps ORDER (labelled cycles)).length, errorAt files k a b =
          lib.tppf 0.975 ((xs.length : ℝ) - K) * Real.sqrt (S / ((xs.length : ℝ) - K) * G k k)) ∧
        mapAt files base a b = S ∧
        (0 < S → mapAt files (base + 1) a b = 2 * (K + 1) - 2 * logLik xs.length S) ∧
        (0 < S → mapAt files (base + 2) a b = Real.log xs.length * (K + 1) - 2 * logLik xs.length S) ∧
        mapAt files (base + 3) a b = 1 - (S / ((xs.length : ℝ) - K)) / (spread xs a b / ((xs.length : ℝ) - 1))) := by
  obtain ⟨suffix, xs, l, nlat, nlon, cell, hs, hst, ho, hl, hsame, hc, hco, -, hfi⟩ := layout lib disk j ORDER cycles files h
  have hget : ∀ i < 4, ∃ f, (fitFiles j suffix ('x' :: num 0 ORDER) cell)[i]? = some f ∧ f.name = outName j suffix
        (["SSE_".toList, "AIC_".toList, "BIC_".toList, "R2Adj_".toList].getD i [] ++ 'x' :: num 0 ORDER) j.START j.END := by
    intro i hi
    rcases (by omega : i = 0 ∨ i = 1 ∨ i = 2 ∨ i = 3) with rfl | rfl | rfl | rfl <;> exact ⟨_, rfl, rfl⟩
  have hlen : files.length = (comps ORDER (labelled cycles)).length + 2 * (labelled cycles).length + 4 := by
    apply le_antisymm
    · have := hfi 4
      have h4 : (fitFiles j suffix ('x' :: num 0 ORDER) cell)[4]? = none := rfl
      rw [h4] at this
      exact List.getElem?_eq_none_iff.1 this
    · have := hfi 3
      obtain ⟨f, hf, -⟩ := hget 3 (by omega)
      rw [hf] at this
      have := (List.getElem?_eq_some_iff.1 this).1
      omega
  refine ⟨suffix, xs, hs, hst, _, _, rfl, rfl, hlen, ?_, ?_⟩
  · intro i hi
    rw [hfi i]
    exact hget i hi
  · intro hn x0 hx0 a ha b hb
    obtain ⟨e1, e2⟩ := hsame x0 hx0
    obtain ⟨x, hx, hcell⟩ := cells_ok _ _ cell hc a b (by rw [e1] at ha; exact ha) (by rw [e2] at hb; exact hb)
    obtain ⟨G, hG, hM⟩ := fitCell_measures lib xs l nlat nlon hl ORDER cycles a b x hn hx
    refine ⟨(cellOf x).beta, G, _, fitCell_best lib xs l nlat nlon hl ORDER cycles a b x hx, hG, rfl, ?_, ?_, ?_, ?_, ?_⟩
    · intro k hk
      obtain ⟨u, hu⟩ := hco k hk
      unfold errorAt
      rw [hu]
      simp only
      rw [hcell]
      refine hM.error k ?_
      rw [comps_length] at hk ⊢
      have := labelled_le cycles
      omega
    · unfold mapAt
      have := hfi 0
      rw [Nat.add_zero] at this
      rw [this]
      change (cell a b).SSE = _
      rw [hcell]; exact hM.sse
    · intro hp
      unfold mapAt
      rw [hfi 1]
      change (cell a b).AIC = _
      rw [hcell]; exact hM.aic hp
    · intro hp
      unfold mapAt
      rw [hfi 2]
      change (cell a b).BIC = _
      rw [hcell]; exact hM.bic hp
    · unfold mapAt
      rw [hfi 3]
      change (cell a b).R2Adj = _
      rw [hcell]; exact hM.r2adj

/-! ## Names -/

theorem outName_inj (j : Job) (suffix l1 l2 : List Char) (a b : ℕ) (h : outName j suffix l1 a b = outName j suffix l2 a b) :
    l1 = l2 := by
  unfold outName at h
  simp only [List.append_assoc, List.cons_append] at h
  have h2 := List.append_cancel_left h
  rw [List.cons.injEq] at h2
  exact List.append_cancel_right h2.2

/-- what a file shows -/
inductive Key
  | comp (c : Comp) | amp (w : Wave) | phase (w : Wave) | fit (i : Fin 4)
deriving DecidableEq

/-- its label -/
def Key.label (ORDER : ℕ) : Key → List Char
  | .comp c => c.label
  | .amp w => w.label ++ "_AMPL".toList
  | .phase w => w.label ++ "_PHASE".toList
  | .fit i => ["SSE_".toList, "AIC_".toList, "BIC_".toList, "R2Adj_".toList].getD i [] ++ 'x' :: num 0 ORDER

/-- all waves that can have a label -/
def allWaves : List Wave := [.cycle (1 / 2), .cycle 1] ++ Tide.all.flatMap fun t => [.alias t false, .alias t true]

/-- everything that can be shown -/
def allKeys : List Key :=
  (comps 2 allWaves).map .comp ++ allWaves.map .amp ++ allWaves.map .phase ++ [.fit 0, .fit 1, .fit 2, .fit 3]

theorem keys_inj : ∀ o ∈ List.range 3, (allKeys.map (Key.label o)).Nodup := by decide +kernel

theorem labelled_all (cycles : List ℚ) : ∀ w ∈ labelled cycles, w ∈ allWaves := by
  intro w hw
  unfold labelled at hw
  obtain ⟨c, -, hw⟩ := List.mem_flatMap.1 hw
  split_ifs at hw with hs
  · rw [List.mem_singleton] at hw
    rcases hs with rfl | rfl <;> subst hw <;> decide +kernel
  · unfold aliases at hw
    obtain ⟨t, ht, hw⟩ := List.mem_flatMap.1 hw
    refine List.mem_append_right _ (List.mem_flatMap.2 ⟨t, ?_, hw⟩)
    unfold near at ht
    exact (List.mem_filter.1 ht).1

/-- what the files show, in order -/
def keysOf (ORDER : ℕ) (cycles : List ℚ) : List Key :=
  (comps ORDER (labelled cycles)).map .comp ++ ((labelled cycles).flatMap fun w => [.amp w, .phase w]) ++
    [.fit 0, .fit 1, .fit 2, .fit 3]

theorem keysOf_nodup (ORDER : ℕ) (cycles : List ℚ) (h : (labelled cycles).Nodup) : (keysOf ORDER cycles).Nodup := by
  have hc : (comps ORDER (labelled cycles)).Nodup := by
    unfold comps
    rw [List.nodup_append]
    refine ⟨(List.nodup_range).map (by intro a b h; injection h), ?_, ?_⟩
    · rw [List.nodup_flatMap]
      refine ⟨fun w _ => by simp, h.imp ?_⟩
      intro v w hvw
      simp [Function.onFun, List.Disjoint]
      tauto
    · intro x hx y hy
      obtain ⟨o, -, rfl⟩ := List.mem_map.1 hx
      obtain ⟨w, -, hw⟩ := List.mem_flatMap.1 hy
      rintro rfl
      simp at hw
  have ha : ((labelled cycles).flatMap fun w => [Key.amp w, .phase w]).Nodup := by
    rw [List.nodup_flatMap]
    refine ⟨fun w _ => by simp, h.imp ?_⟩
    intro v w hvw
    simp [Function.onFun, List.Disjoint]
    tauto
  unfold keysOf
  rw [List.nodup_append, List.nodup_append]
  refine ⟨⟨hc.map (by intro a b h; injection h), ha, ?_⟩, by decide, ?_⟩
  · intro x hx y hy
    obtain ⟨c, -, rfl⟩ := List.mem_map.1 hx
    obtain ⟨w, -, hw⟩ := List.mem_flatMap.1 hy
    rintro rfl
    simp at hw
  · intro x hx y hy
    rintro rfl
    rcases List.mem_append.1 hx with hx | hx
    · obtain ⟨c, -, rfl⟩ := List.mem_map.1 hx
      simp at hy
    · obtain ⟨w, -, hw⟩ := List.mem_flatMap.1 hx
      simp at hw
      rcases hw with rfl | rfl <;> simp at hy

theorem keysOf_all (ORDER : ℕ) (hO : ORDER ≤ 2) (cycles : List ℚ) : ∀ k ∈ keysOf ORDER cycles, k ∈ allKeys := by
  intro k hk
  have hw := labelled_all cycles
  unfold keysOf at hk
  unfold allKeys
  rcases List.mem_append.1 hk with hk | hk
  · rcases List.mem_append.1 hk with hk | hk
    · refine List.mem_append_left _ (List.mem_append_left _ (List.mem_append_left _ ?_))
      obtain ⟨c, hc, rfl⟩ := List.mem_map.1 hk
      refine List.mem_map_of_mem ?_
      unfold comps at hc ⊢
      rcases List.mem_append.1 hc with hc | hc
      · obtain ⟨o, ho, rfl⟩ := List.mem_map.1 hc
        rw [List.mem_range] at ho
        exact List.mem_append_left _ (List.mem_map_of_mem (List.mem_range.2 (by omega)))
      · obtain ⟨w, hw', hc⟩ := List.mem_flatMap.1 hc
        exact List.mem_append_right _ (List.mem_flatMap.2 ⟨w, hw w hw', hc⟩)
    · obtain ⟨w, hw', hk⟩ := List.mem_flatMap.1 hk
      simp only [List.mem_cons, List.not_mem_nil, or_false] at hk
      rcases hk with rfl | rfl
      · exact List.mem_append_left _ (List.mem_append_left _ (List.mem_append_right _ (List.mem_map_of_mem (hw w hw'))))
      · exact List.mem_append_left _ (List.mem_append_right _ (List.mem_map_of_mem (hw w hw')))
  · exact List.mem_append_right _ hk

theorem names_keys (lib : Lib) (disk : List Char → Option InMap) (j : Job) (ORDER : ℕ) (cycles : List ℚ) (files : List Out)
    (h : regressMaps lib disk j ORDER (some cycles) = .ok files) :
    ORDER ≤ 2 ∧ ∃ suffix, suffixOf j.DATAFORM = .ok suffix ∧
      files.map Out.name = (keysOf ORDER cycles).map fun k => outName j suffix (k.label ORDER) j.START j.END := by
  obtain ⟨suffix, g, cell, hi, ho, hc, rfl⟩ := regressMaps_ok lib disk j ORDER cycles files h
  obtain ⟨hs, -⟩ := input_ok disk j suffix g hi
  refine ⟨ho, suffix, hs, ?_⟩
  unfold keysOf
  simp only [List.map_append]
  congr 1
  congr 1
  · unfold coefFiles
    rw [List.map_map, List.map_map]
    have e := coef_length ORDER cycles
    apply List.ext_getElem
    · simp [e]
    · intro i h1 h2
      simp only [List.getElem_map, Function.comp_apply, List.getElem_range]
      have hi : i < (comps ORDER (labelled cycles)).length := by simpa using h2
      rw [e]
      simp [hi, Key.label]
  · unfold ampFiles
    rw [(plan_eq _ cycles).2.1]
    simp only [polyPlan, List.nil_append]
    have : ∀ (ws : List Wave) (n : ℕ), List.map Out.name (List.flatMap (fun fi : List Char × ℕ =>
        [(⟨outName j suffix (fi.1 ++ "_AMPL".toList) j.START j.END, j.unitsName,
            fun a b => ampOf (cell a b) (1 + ORDER + 2 * fi.2), some fun a b => ampError (cell a b) (1 + ORDER + 2 * fi.2)⟩ : Out),
          ⟨outName j suffix (fi.1 ++ "_PHASE".toList) j.START j.END, "degrees".toList,
            fun a b => phaseOf (cell a b) (1 + ORDER + 2 * fi.2),
            some fun a b => phaseError (cell a b) (1 + ORDER + 2 * fi.2)⟩]) ((ws.map Wave.label).zipIdx n)) =
        List.map (fun k => outName j suffix (k.label ORDER) j.START j.END) (ws.flatMap fun w => [Key.amp w, .phase w]) := by
      intro ws
      induction ws with
      | nil => intro n; rfl
      | cons w r ih =>
        intro n
        rw [List.map_cons, List.zipIdx_cons, List.flatMap_cons, List.flatMap_cons, List.map_append, List.map_append, ih (n + 1)]
        rfl
    exact this _ 0

/-- C94: no file overwrites another one, if no wave with a label is given twice -/
theorem names_distinct (lib : Lib) (disk : List Char → Option InMap) (j : Job) (ORDER : ℕ) (cycles : List ℚ) (files : List Out)
    (h : regressMaps lib disk j ORDER (some cycles) = .ok files) : (files.map Out.name).Nodup ↔ (labelled cycles).Nodup := by
  obtain ⟨ho, suffix, -, he⟩ := names_keys lib disk j ORDER cycles files h
  rw [he]
  constructor
  · intro hn
    have hk := List.Nodup.of_map _ hn
    unfold keysOf at hk
    have h1 := (List.nodup_append.1 (List.nodup_append.1 hk).1).2.1
    have h2 := h1.sublist (l₁ := (labelled cycles).map Key.amp) ?_
    · exact List.Nodup.of_map _ h2
    · generalize labelled cycles = ws
      induction ws with
      | nil => exact List.Sublist.refl _
      | cons w r ih =>
        rw [List.map_cons, List.flatMap_cons]
        exact (ih.cons _).cons_cons _
  · intro hn
    refine List.Nodup.map_on ?_ (keysOf_nodup ORDER cycles hn)
    intro x hx y hy hxy
    have hl := outName_inj j suffix _ _ _ _ hxy
    exact List.inj_on_of_nodup_map (keys_inj ORDER (List.mem_range.2 (by omega))) (keysOf_all ORDER ho cycles x hx)
      (keysOf_all ORDER ho cycles y hy) hl

/-! ## When the program succeeds -/

theorem independent_fullRank (l : List (ℕ × InMap)) (xs : List InMap) (hl : List.Perm (l.map (·.2)) xs) (cs : List Comp)
    (cols : List (Fin l.length → ℝ)) (hc : cols = cs.map fun c i => c.value (meanDate xs) (l.get i).2.time) :
    FullRank (design cols) ↔ Independent xs cs := by
  have hlen : cols.length = cs.length := by rw [hc, List.length_map]
  have hsum : ∀ (u : ℕ → ℝ) (i : Fin l.length), ∑ j, design cols i j * u j.1 = curve (meanDate xs) cs u (l.get i).2.time := by
    intro u i
    rw [design_sum (cs.map fun c : Comp => c.value (meanDate xs)) (fun i => (l.get i).2.time) cols
      (by rw [hc, List.map_map]; rfl) u i, ← curve_sum]
  have hmem : ∀ x ∈ xs, ∃ i : Fin l.length, (l.get i).2 = x := by
    intro x hx
    obtain ⟨m, hm, rfl⟩ := List.mem_map.1 (hl.mem_iff.2 hx)
    obtain ⟨i, hi⟩ := List.mem_iff_get.1 hm
    exact ⟨i, by rw [hi]⟩
  constructor
  · intro hX v hv k hk
    have := hX (fun j => v j.1) fun i => by
      rw [hsum]
      exact hv _ (hl.mem_iff.1 (List.mem_map_of_mem (List.get_mem l i)))
    exact congrFun this ⟨k, hlen ▸ hk⟩
  · intro hI v hv
    have hat : ∀ j : Fin cols.length, at' v j.1 = v j := by
      intro j; unfold at'; rw [dif_pos j.2]
    have h0 := hI (at' v) fun x hx => by
      obtain ⟨i, hi⟩ := hmem x hx
      rw [← hi, ← hsum]
      simp only [hat]
      exact hv i
    funext j
    rw [← hat j]
    exact h0 j.1 (hlen ▸ j.2)

/-- one cell can be fitted when there are two maps and the functions are independent -/
theorem fitCell_some (lib : Lib) (xs : List InMap) (l : List (ℕ × InMap)) (nlat nlon : ℕ) (hl : List.Perm (l.map (·.2)) xs)
    (ORDER : ℕ) (cycles : List ℚ) (a b : ℕ) :
    (fitCell lib (gridFrom nlat nlon l) ORDER cycles (plan (polyPlan ORDER) cycles) a b).isSome ↔
      xs.length ≠ 1 ∧ Independent xs (comps ORDER (fitted cycles)) := by
  have hxl : xs.length = l.length := by rw [← hl.length_eq, List.length_map]
  unfold fitCell regress
  by_cases h1 : (gridFrom nlat nlon l).n = 1
  · rw [if_pos h1]
    have : xs.length = 1 := by rw [hxl]; exact h1
    simp [this]
  · rw [if_neg h1]
    have h1' : xs.length ≠ 1 := by rw [hxl]; exact h1
    have he : epoch (gridFrom nlat nlon l).time Relative.ellipsis = some (meanDate xs) := by
      rw [meanDate_eq l xs hl]; rfl
    rw [he]
    simp only [Option.isSome_map]
    have hn := (regressFit_none lib.erf lib.tppf lib.eps (design (regressCols (gridFrom nlat nlon l).time (meanDate xs) ORDER
      ((remaining (plan (polyPlan ORDER) cycles) cycles).map fun c : ℚ => (c : ℝ))
      (termsOf (gridFrom nlat nlon l).time (plan (polyPlan ORDER) cycles)))) ((gridFrom nlat nlon l).data a b) (ORDER + 1)
      fitOpts).2.2 0
    have hf := independent_fullRank l xs hl (comps ORDER (fitted cycles)) _
      (fit_cols (gridFrom nlat nlon l).time (meanDate xs) ORDER cycles)
    rw [← hf]
    rw [← Option.not_isSome_iff_eq_none] at hn
    constructor
    · intro h; exact ⟨h1', by_contra fun hX => (hn.2 hX) h⟩
    · intro h; by_contra hX; exact (hn.1 hX) h.2

/-- C94: the program succeeds exactly when: the format is one of the two that are not text, the map of every month is on the
disk, there are months, all maps are on one grid, the order is at most 2, and (for grids with cells) there are at least two
months and no combination of the functions that are fitted vanishes at all dates -/
theorem regress_succeeds (lib : Lib) (disk : List Char → Option InMap) (j : Job) (ORDER : ℕ) (cycles : List ℚ) :
    (∃ files, regressMaps lib disk j ORDER (some cycles) = .ok files) ↔
      ∃ suffix xs nlat nlon, ((j.DATAFORM = "netCDF4".toList ∧ suffix = "nc".toList) ∨
          (j.DATAFORM = "HDF5".toList ∧ suffix = "H5".toList)) ∧
        Stored disk j suffix xs ∧ xs ≠ [] ∧ (∀ x ∈ xs, x.nlat = nlat ∧ x.nlon = nlon) ∧ ORDER ≤ 2 ∧
        (0 < nlat → 0 < nlon → 2 ≤ xs.length ∧ Independent xs (comps ORDER (fitted cycles))) := by
  have hne : "ascii".toList ≠ "netCDF4".toList ∧ "ascii".toList ≠ "HDF5".toList ∧ "HDF5".toList ≠ "netCDF4".toList := by decide
  constructor
  · rintro ⟨files, h⟩
    obtain ⟨suffix, g, cell, hi, ho, hc, -⟩ := regressMaps_ok lib disk j ORDER cycles files h
    obtain ⟨hs, hasc, xs, l, nlat, nlon, hst, hxs, rfl, -, hl, -, -, hsame⟩ := input_ok disk j suffix g hi
    refine ⟨suffix, xs, nlat, nlon, ?_, hst, hxs, hsame, ho, fun h1 h2 => ?_⟩
    · unfold suffixOf at hs
      split_ifs at hs with a1 a2 a3
      · exact absurd a1 hasc
      · cases hs; exact .inl ⟨a2, rfl⟩
      · cases hs; exact .inr ⟨a3, rfl⟩
    · obtain ⟨x, hx, -⟩ := cells_ok _ _ cell hc 0 0 h1 h2
      have := (fitCell_some lib xs l nlat nlon hl ORDER cycles 0 0).1 (by rw [hx]; rfl)
      have h0 : xs.length ≠ 0 := fun h => hxs (List.length_eq_zero_iff.1 h)
      exact ⟨by omega, this.2⟩
  · rintro ⟨suffix, xs, nlat, nlon, hform, hst, hxs, hsame, ho, hind⟩
    have hsuf : suffixOf j.DATAFORM = .ok suffix ∧ j.DATAFORM ≠ "ascii".toList := by
      rcases hform with ⟨e, rfl⟩ | ⟨e, rfl⟩
      · rw [e]; unfold suffixOf; rw [if_neg hne.1.symm, if_pos rfl]; exact ⟨rfl, hne.1.symm⟩
      · rw [e]; unfold suffixOf; rw [if_neg hne.2.1.symm, if_neg hne.2.2, if_pos rfl]; exact ⟨rfl, hne.2.1.symm⟩
    obtain ⟨g, hi, g1, g2⟩ := input_stored disk j suffix xs nlat nlon hsuf.1 hsuf.2 hst hxs hsame
    obtain ⟨-, -, xs', l, nlat', nlon', hst', -, rfl, -, hl, -, -, -⟩ := input_ok disk j suffix g hi
    have hxx : xs' = xs := by
      unfold Stored at hst hst'
      have := hst'.symm.trans hst
      exact List.map_injective_iff.2 (Option.some_injective _) this
    subst hxx
    have g1 : nlat' = nlat := g1
    have g2 : nlon' = nlon := g2
    subst g1 g2
    unfold regressMaps
    rw [hi]
    simp only
    rw [if_neg (by omega)]
    have hall : ∀ a < (gridFrom nlat' nlon' l).nlat, ∀ b < (gridFrom nlat' nlon' l).nlon,
        (fitCell lib (gridFrom nlat' nlon' l) ORDER cycles (plan (polyPlan ORDER) cycles) a b).isSome := by
      intro a ha b hb
      obtain ⟨i1, i2⟩ := hind (Nat.zero_lt_of_lt ha) (Nat.zero_lt_of_lt hb)
      exact (fitCell_some lib xs' l nlat' nlon' hl ORDER cycles a b).2 ⟨by omega, i2⟩
    unfold cells
    rw [if_pos hall]
    exact ⟨_, rfl⟩

/-- C94: without an option for cycles the program never succeeds -/
theorem regress_no_cycles (lib : Lib) (disk : List Char → Option InMap) (j : Job) (ORDER : ℕ) (files : List Out) :
    regressMaps lib disk j ORDER none ≠ .ok files := by
  unfold regressMaps
  cases input disk j with
  | error e => simp
  | ok x => simp

/-- C94: exact recovery: when the maps are the value of a combination of the functions at a cell, the maps hold its
coefficients there, whatever the values -/
theorem regress_exact (lib : Lib) (disk : List Char → Option InMap) (j : Job) (ORDER : ℕ) (S T : List ℚ)
    (hS : ∀ c ∈ S, Season c) (hT : ∀ c ∈ T, Tidal c) (files : List Out)
    (h : regressMaps lib disk j ORDER (some (S ++ T)) = .ok files) :
    ∃ suffix xs, suffixOf j.DATAFORM = .ok suffix ∧ Stored disk j suffix xs ∧
      ∀ x0 ∈ xs, ∀ a < x0.nlat, ∀ b < x0.nlon, ∀ v : ℕ → ℝ,
        (∀ x ∈ xs, x.data a b = curve (meanDate xs) (comps ORDER (labelled (S ++ T))) v x.time) →
        ∀ k < (comps ORDER (labelled (S ++ T))).length, mapAt files k a b = v k := by
  obtain ⟨suffix, xs, h1, h2, -, h4⟩ := regress_right lib disk j ORDER S T hS hT files h
  refine ⟨suffix, xs, h1, h2, fun x0 hx0 a ha b hb v hv k hk => ?_⟩
  have hb := h4 x0 hx0 a ha b hb
  have hz : misfit xs a b (curve (meanDate xs) (comps ORDER (labelled (S ++ T))) v) = 0 := by
    unfold misfit
    rw [List.sum_eq_zero]
    intro y hy
    obtain ⟨x, hx, rfl⟩ := List.mem_map.1 hy
    rw [hv x hx]; ring
  refine (hb.unique v ?_ k hk).symm
  rw [hz]
  unfold misfit
  refine List.sum_nonneg fun y hy => ?_
  obtain ⟨x, hx, rfl⟩ := List.mem_map.1 hy
  positivity

/-- C94: the program reads the maps under the names under which `grace_spatial_maps` writes them -/
theorem inName_eq (j : Job) (suffix : List Char) (o : Maps.Opts) (m : ℕ) (h1 : o.LMAX = j.LMAX) (h2 : o.MMAX = j.MMAX)
    (h3 : o.DESTRIPE = j.DESTRIPE) : inName j suffix m = Maps.fileName j.prefix_ j.units j.gw suffix o m := by
  unfold inName Job.stem Maps.fileName Maps.Opts.order num
  rw [h1, h2, h3]
  by_cases h0 : j.MMAX = 0
  · simp [h0]
  · simp [h0]

/-- C94: months: all from the first to the last that are not missing, each once and increasing -/
theorem months_spec (j : Job) : (months j).Pairwise (· < ·) ∧ ∀ m, m ∈ months j ↔ j.START ≤ m ∧ m ≤ j.END ∧ m ∉ j.MISSING := by
  constructor
  · unfold months
    refine List.Pairwise.filter _ ?_
    rw [List.pairwise_map]
    exact List.pairwise_lt_range.imp fun h => by omega
  · intro m
    unfold months
    simp only [List.mem_filter, List.mem_map, List.mem_range, decide_eq_true_eq]
    constructor
    · rintro ⟨⟨i, hi, rfl⟩, h⟩; exact ⟨by omega, by omega, h⟩
    · rintro ⟨h1, h2, h3⟩; exact ⟨⟨m - j.START, by omega, by omega⟩, h3⟩

end Verif.RegMaps
