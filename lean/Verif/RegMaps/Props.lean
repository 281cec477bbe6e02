import Verif.RegMaps.Fit

/-!
# C94: maps of trends, cycles and tides
-/
namespace Verif.RegMaps
open Verif.TimeSeries Finset

/-! ## What a successful run is -/

theorem coef_length (ORDER : ℕ) (cycles : List ℚ) :
    (plan (polyPlan ORDER) cycles).coef = (comps ORDER (labelled cycles)).map Comp.label := by
  rw [(plan_eq _ cycles).1]
  unfold comps
  rw [List.map_append, List.map_map]
  rfl

theorem comps_length (ORDER : ℕ) (ws : List Wave) : (comps ORDER ws).length = ORDER + 1 + 2 * ws.length := by
  unfold comps
  rw [List.length_append, List.length_map, List.length_range, List.length_flatMap]
  simp; ring

/-- a successful run -/
theorem regressMaps_ok (lib : Lib) (disk : List Char → Option InMap) (j : Job) (ORDER : ℕ) (cycles : List ℚ) (files : List Out)
    (h : regressMaps lib disk j ORDER (some cycles) = .ok files) :
    ∃ suffix g cell, input disk j = .ok (suffix, g) ∧ ORDER ≤ 2 ∧
      cells g (fitCell lib g ORDER cycles (plan (polyPlan ORDER) cycles)) = .ok cell ∧
      files = coefFiles j suffix (plan (polyPlan ORDER) cycles) (fun _ => (j.START, j.END)) cell ++
        ampFiles j suffix "_AMPL".toList (plan (polyPlan ORDER) cycles) (1 + ORDER) cell ++
        fitFiles j suffix ('x' :: num 0 ORDER) cell := by
  unfold regressMaps at h
  cases hi : input disk j with
  | error e => rw [hi] at h; cases h
  | ok sg =>
    obtain ⟨suffix, g⟩ := sg
    rw [hi] at h
    simp only at h
    by_cases ho : 2 < ORDER
    · rw [if_pos ho] at h; cases h
    · rw [if_neg ho] at h
      cases hc : cells g (fitCell lib g ORDER cycles (plan (polyPlan ORDER) cycles)) with
      | error e => rw [hc] at h; cases h
      | ok cell =>
        rw [hc] at h
        cases h
        exact ⟨suffix, g, cell, rfl, by omega, hc, rfl⟩

theorem cells_ok (g : Grid) (fit : ℕ → ℕ → Option ((k : ℕ) × Result g.n k)) (cell : ℕ → ℕ → Cell)
    (h : cells g fit = .ok cell) (a b : ℕ) (ha : a < g.nlat) (hb : b < g.nlon) :
    ∃ x, fit a b = some x ∧ cell a b = cellOf x := by
  unfold cells at h
  split_ifs at h with hall
  cases h
  obtain ⟨x, hx⟩ := Option.isSome_iff_exists.1 (hall a ha b hb)
  exact ⟨x, hx, by simp only [hx]⟩

theorem coefFiles_get (j : Job) (suffix : List Char) (p : Plan) (span : ℕ → ℕ × ℕ) (cell : ℕ → ℕ → Cell) (k : ℕ)
    (hk : k < p.coef.length) :
    (coefFiles j suffix p span cell)[k]? = some
      ⟨outName j suffix (p.coef.getD k []) (span k).1 (span k).2, j.unitsName ++ p.unit.getD k [],
        fun a b => (cell a b).beta k, some fun a b => (cell a b).error k⟩ := by
  unfold coefFiles
  rw [List.getElem?_map, List.getElem?_range hk]
  rfl

/-- the fit of a cell in terms of the maps on the disk -/
theorem fitCell_best (lib : Lib) (xs : List InMap) (l : List (ℕ × InMap)) (nlat nlon : ℕ) (hl : List.Perm (l.map (·.2)) xs)
    (ORDER : ℕ) (cycles : List ℚ) (a b : ℕ) (x : (k : ℕ) × Result (gridFrom nlat nlon l).n k)
    (h : fitCell lib (gridFrom nlat nlon l) ORDER cycles (plan (polyPlan ORDER) cycles) a b = some x) :
    Best xs a b (comps ORDER (fitted cycles)).length (curve (meanDate xs) (comps ORDER (fitted cycles))) (cellOf x).beta := by
  unfold fitCell at h
  obtain ⟨trel, he, r, hr, rfl⟩ := regress_unfold h
  have ht : trel = meanDate xs := by
    rw [meanDate_eq l xs hl]
    simp only [epoch, Option.some.injEq] at he
    exact he.symm
  subst ht
  have hb := best_of_fit l xs hl a b ((comps ORDER (fitted cycles)).map fun c : Comp => c.value (meanDate xs)) _
    (by rw [fit_cols, List.map_map]; rfl) lib.erf lib.tppf lib.eps (ORDER + 1) fitOpts r hr
  rw [List.length_map] at hb
  have hf : (fun (v : ℕ → ℝ) (t : ℝ) => ∑ k ∈ range (comps ORDER (fitted cycles)).length,
      v k * (((comps ORDER (fitted cycles)).map fun c : Comp => c.value (meanDate xs)).getD k 0) t) =
      curve (meanDate xs) (comps ORDER (fitted cycles)) := by
    funext v t
    unfold curve
    refine Finset.sum_congr rfl fun k hk => ?_
    rw [mem_range] at hk
    simp [hk]
  rw [hf] at hb
  exact hb

/-! ## Names and contents -/

/-- C94: the first files are labelled by the powers and by the sine and cosine of each cycle in the order in which the cycles
were given, trends have units per year; their cells are the first coefficients of the only least squares fit of the maps of the
months with the powers about the mean date, the cycles that are not tidal, and the tides, in this order -/
theorem regress_components (lib : Lib) (disk : List Char → Option InMap) (j : Job) (ORDER : ℕ) (cycles : List ℚ)
    (files : List Out) (h : regressMaps lib disk j ORDER (some cycles) = .ok files) :
    ∃ suffix xs, suffixOf j.DATAFORM = .ok suffix ∧ Stored disk j suffix xs ∧
      (∀ k < (comps ORDER (labelled cycles)).length, ∃ f, files[k]? = some f ∧
        f.name = outName j suffix ((comps ORDER (labelled cycles)).getD k (.power 0)).label j.START j.END ∧
        f.units = j.unitsName ++ (if k ≤ ORDER then yearUnit k else [])) ∧
      ∀ x0 ∈ xs, ∀ a < x0.nlat, ∀ b < x0.nlon, ∃ w,
        Best xs a b (comps ORDER (fitted cycles)).length (curve (meanDate xs) (comps ORDER (fitted cycles))) w ∧
        ∀ k < (comps ORDER (labelled cycles)).length, mapAt files k a b = w k := by
  obtain ⟨suffix, g, cell, hi, -, hc, rfl⟩ := regressMaps_ok lib disk j ORDER cycles files h
  obtain ⟨hs, -, xs, l, nlat, nlon, hst, -, rfl, -, hl, -, -, hsame⟩ := input_ok disk j suffix g hi
  have hco := coef_length ORDER cycles
  have hlen : (plan (polyPlan ORDER) cycles).coef.length = (comps ORDER (labelled cycles)).length := by
    rw [hco, List.length_map]
  have hget : ∀ k < (comps ORDER (labelled cycles)).length, (coefFiles j suffix (plan (polyPlan ORDER) cycles)
      (fun _ => (j.START, j.END)) cell ++ ampFiles j suffix "_AMPL".toList (plan (polyPlan ORDER) cycles) (1 + ORDER) cell ++
        fitFiles j suffix ('x' :: num 0 ORDER) cell)[k]? = some
      ⟨outName j suffix ((plan (polyPlan ORDER) cycles).coef.getD k []) j.START j.END,
        j.unitsName ++ (plan (polyPlan ORDER) cycles).unit.getD k [],
        fun a b => (cell a b).beta k, some fun a b => (cell a b).error k⟩ := by
    intro k hk
    have hk' : k < (coefFiles j suffix (plan (polyPlan ORDER) cycles) (fun _ => (j.START, j.END)) cell).length := by
      unfold coefFiles; rw [List.length_map, List.length_range, hlen]; exact hk
    rw [List.append_assoc, List.getElem?_append_left hk', coefFiles_get _ _ _ _ _ _ (by rw [hlen]; exact hk)]
  refine ⟨suffix, xs, hs, hst, ?_, ?_⟩
  · intro k hk
    refine ⟨_, hget k hk, ?_, ?_⟩
    · simp only
      rw [hco]
      simp [hk]
    · simp only
      rw [(plan_eq _ cycles).2.2.1]
      congr 1
      by_cases hko : k ≤ ORDER
      · rw [if_pos hko]
        simp only [polyPlan, List.getD_eq_getElem?_getD]
        rw [List.getElem?_append_left (by simpa using Nat.lt_succ_of_le hko), List.getElem?_map,
          List.getElem?_range (by omega)]
        rfl
      · rw [if_neg hko]
        simp only [polyPlan, List.getD_eq_getElem?_getD]
        rw [List.getElem?_append_right (by simpa using Nat.lt_of_not_le hko), List.getElem?_replicate]
        split <;> rfl
  · intro x0 hx0 a ha b hb
    obtain ⟨e1, e2⟩ := hsame x0 hx0
    obtain ⟨x, hx, hcell⟩ := cells_ok _ _ cell hc a b (by rw [e1] at ha; exact ha) (by rw [e2] at hb; exact hb)
    refine ⟨(cellOf x).beta, fitCell_best lib xs l nlat nlon hl ORDER cycles a b x hx, fun k hk => ?_⟩
    unfold mapAt
    rw [hget k hk]
    simp only
    rw [hcell]

/-- a map does not depend on how equal lists of functions are written -/
theorem Best.congr {xs : List InMap} {a b K : ℕ} {cs : List Comp} (hK : K = cs.length) {tbar : ℝ} {v w : ℕ → ℝ}
    (h : Best xs a b K (curve tbar cs) w) (he : ∀ k < K, v k = w k) : Best xs a b K (curve tbar cs) v := by
  have hc : curve tbar cs v = curve tbar cs w := by
    funext t
    unfold curve
    refine Finset.sum_congr rfl fun k hk => ?_
    rw [he k (by rw [hK]; exact mem_range.1 hk)]
  refine ⟨fun u => by rw [hc]; exact h.least u, fun u hu k hk => ?_⟩
  rw [hc] at hu
  rw [he k hk]
  exact h.unique u hu k hk

/-! ## When the labels are right -/

theorem labelled_cons (c : ℚ) (r : List ℚ) : labelled (c :: r) = labelledOf c ++ labelled r := rfl

theorem labelledOf_season {c : ℚ} (h : Season c) : labelledOf c = [.cycle c] := if_pos h

theorem labelledOf_other {c : ℚ} (h : ¬ Season c) : labelledOf c = aliases c := if_neg h

theorem tidal_ne {c : ℚ} (h : Tidal c) : ¬ near c = [] := h

theorem not_tidal_of_season {c : ℚ} (h : Season c) : near c = [] := by
  rcases h with rfl | rfl
  · exact near_season.1
  · exact near_season.2

theorem fitted_season (c : ℚ) (r : List ℚ) (h : Season c) : fitted (c :: r) = .cycle c :: fitted r := by
  unfold fitted
  have hn := not_tidal_of_season h
  rw [List.filter_cons_of_pos (by simpa using hn)]
  have : aliases c = [] := by unfold aliases; rw [hn]; rfl
  simp [this]

theorem labelled_season (c : ℚ) (r : List ℚ) (h : Season c) : labelled (c :: r) = .cycle c :: labelled r := by
  rw [labelled_cons, labelledOf_season h]; rfl

theorem aliases_head {c : ℚ} (h : Tidal c) : ∃ t r, aliases c = .alias t false :: r := by
  unfold aliases
  obtain ⟨t, r, e⟩ := List.exists_cons_of_ne_nil h
  rw [e]
  exact ⟨t, _, rfl⟩

/-- C94: every file holds the coefficient of the function in its label exactly when the cycles are given in the right order:
first those of half a year and a year, then tides or else other cycles -/
theorem labels_right_iff (cycles : List ℚ) : labelled cycles <+: fitted cycles ↔ WellOrdered cycles := by
  induction cycles with
  | nil => exact ⟨fun _ => ⟨[], [], rfl, by simp, .inl (by simp)⟩, fun _ => by simp [labelled]⟩
  | cons c r ih =>
    by_cases hs : Season c
    · rw [labelled_season c r hs, fitted_season c r hs, List.cons_prefix_cons, ih]
      constructor
      · rintro ⟨-, S, R, rfl, h1, h2⟩
        exact ⟨c :: S, R, rfl, by simpa using ⟨hs, h1⟩, h2⟩
      · rintro ⟨S, R, e, h1, h2⟩
        refine ⟨rfl, ?_⟩
        cases S with
        | nil =>
          rw [List.nil_append] at e
          subst e
          rcases h2 with h2 | h2
          · exact absurd (not_tidal_of_season hs) (h2 c (by simp))
          · exact absurd hs (h2 c (by simp)).1
        | cons s S =>
          rw [List.cons_append] at e
          cases e
          exact ⟨S, R, rfl, fun x hx => h1 x (List.mem_cons_of_mem _ hx), h2⟩
    · have hl : labelled (c :: r) = aliases c ++ labelled r := by
        rw [labelled_cons, labelledOf_other hs]
      have hW : WellOrdered (c :: r) ↔ ((∀ x ∈ c :: r, Tidal x) ∨ ∀ x ∈ c :: r, ¬ Season x ∧ ¬ Tidal x) := by
        constructor
        · rintro ⟨S, R, e, h1, h2⟩
          cases S with
          | nil => rw [List.nil_append] at e; rw [e]; exact h2
          | cons s S =>
            rw [List.cons_append] at e
            cases e
            exact absurd (h1 c (by simp)) hs
        · intro h2
          exact ⟨[], c :: r, rfl, by simp, h2⟩
      rw [hW]
      by_cases ht : Tidal c
      · obtain ⟨T, q, eq⟩ := aliases_head ht
        constructor
        · intro hp
          refine .inl ?_
          by_contra hn
          push Not at hn
          obtain ⟨d, hd, hdt⟩ := hn
          have hdn : near d = [] := by unfold Tidal at hdt; simpa using hdt
          have : ∃ e s, ((c :: r).filter fun c => near c = []) = e :: s := by
            apply List.exists_cons_of_ne_nil
            intro he
            have : d ∈ ((c :: r).filter fun c => near c = []) := List.mem_filter.2 ⟨hd, by simpa using hdn⟩
            rw [he] at this; simp at this
          obtain ⟨e, s, hes⟩ := this
          rw [hl, eq] at hp
          unfold fitted at hp
          rw [hes] at hp
          simp only [List.cons_append, List.map_cons, List.cons_prefix_cons] at hp
          exact absurd hp.1 (by simp)
        · rintro (h | h)
          · have e1 : ((c :: r).filter fun c => near c = []) = [] := by
              rw [List.filter_eq_nil_iff]
              intro x hx
              simpa using tidal_ne (h x hx)
            have e2 : labelled (c :: r) = (c :: r).flatMap aliases := by
              unfold labelled
              refine List.flatMap_congr fun x hx => ?_
              exact labelledOf_other fun hse => h x hx (not_tidal_of_season hse)
            unfold fitted
            rw [e1, e2]
            simp
          · exact absurd ht (h c (by simp)).2
      · have hcn : near c = [] := by unfold Tidal at ht; simpa using ht
        have ha : aliases c = [] := by unfold aliases; rw [hcn]; rfl
        have hf : ∃ s, fitted (c :: r) = .cycle c :: s := by
          unfold fitted
          rw [List.filter_cons_of_pos (by simpa using hcn)]
          exact ⟨_, rfl⟩
        obtain ⟨s, hf⟩ := hf
        rw [hl, ha, List.nil_append, hf]
        constructor
        · intro hp
          refine .inr ?_
          have hempty : labelled r = [] := by
            by_contra hne
            obtain ⟨w, ws, e⟩ := List.exists_cons_of_ne_nil hne
            rw [e, List.cons_prefix_cons] at hp
            have hw : w ∈ labelled r := by rw [e]; simp
            unfold labelled at hw
            obtain ⟨d, -, hw⟩ := List.mem_flatMap.1 hw
            rw [hp.1] at hw
            split_ifs at hw with hsd
            · simp only [List.mem_singleton, Wave.cycle.injEq] at hw
              rw [← hw] at hsd
              exact hs hsd
            · unfold aliases at hw
              obtain ⟨T, -, hT⟩ := List.mem_flatMap.1 hw
              simp at hT
          intro x hx
          rcases List.mem_cons.1 hx with rfl | hx
          · exact ⟨hs, ht⟩
          · unfold labelled at hempty
            rw [List.flatMap_eq_nil_iff] at hempty
            have := hempty x hx
            split_ifs at this with hsx
            refine ⟨hsx, fun htx => ?_⟩
            obtain ⟨T, q, e⟩ := aliases_head htx
            rw [e] at this
            cases this
        · rintro (h | h)
          · exact absurd (h c (by simp)) ht
          · have : labelled r = [] := by
              unfold labelled
              rw [List.flatMap_eq_nil_iff]
              intro x hx
              have hx' := h x (List.mem_cons_of_mem _ hx)
              change labelledOf x = []
              rw [labelledOf_other hx'.1]
              unfold aliases
              have : near x = [] := by have := hx'.2; unfold Tidal at this; simpa using this
              rw [this]; rfl
            rw [this]
            exact List.nil_prefix

/-- seasonal cycles, then tides: everything that is fitted has a label -/
theorem labelled_eq_fitted (S T : List ℚ) (hS : ∀ c ∈ S, Season c) (hT : ∀ c ∈ T, Tidal c) :
    labelled (S ++ T) = fitted (S ++ T) := by
  have hp := (labels_right_iff (S ++ T)).2 ⟨S, T, rfl, hS, .inl hT⟩
  refine hp.eq_of_length ?_
  induction S with
  | nil =>
    have e1 : (T.filter fun c => near c = []) = [] := by
      rw [List.filter_eq_nil_iff]
      intro x hx
      simpa using tidal_ne (hT x hx)
    have e2 : labelled T = T.flatMap aliases := by
      unfold labelled
      refine List.flatMap_congr fun x hx => ?_
      exact labelledOf_other fun hse => hT x hx (not_tidal_of_season hse)
    rw [List.nil_append, e2]
    unfold fitted
    rw [e1]
    simp
  | cons c S ih =>
    have hc := hS c (by simp)
    rw [List.cons_append, labelled_season c _ hc, fitted_season c _ hc, List.length_cons, List.length_cons,
      ih (fun x hx => hS x (List.mem_cons_of_mem _ hx))
        ((labels_right_iff (S ++ T)).2 ⟨S, T, rfl, fun x hx => hS x (List.mem_cons_of_mem _ hx), .inl hT⟩)]

/-- C94: with seasonal cycles first and then tides, the map in the file with the label of a function is the coefficient of this
function in the only least squares fit -/
theorem regress_right (lib : Lib) (disk : List Char → Option InMap) (j : Job) (ORDER : ℕ) (S T : List ℚ)
    (hS : ∀ c ∈ S, Season c) (hT : ∀ c ∈ T, Tidal c) (files : List Out)
    (h : regressMaps lib disk j ORDER (some (S ++ T)) = .ok files) :
    ∃ suffix xs, suffixOf j.DATAFORM = .ok suffix ∧ Stored disk j suffix xs ∧
      (∀ k < (comps ORDER (labelled (S ++ T))).length, ∃ f, files[k]? = some f ∧
        f.name = outName j suffix ((comps ORDER (labelled (S ++ T))).getD k (.power 0)).label j.START j.END) ∧
      ∀ x0 ∈ xs, ∀ a < x0.nlat, ∀ b < x0.nlon,
        Best xs a b (comps ORDER (labelled (S ++ T))).length (curve (meanDate xs) (comps ORDER (labelled (S ++ T))))
          (fun k => mapAt files k a b) := by
  obtain ⟨suffix, xs, h1, h2, h3, h4⟩ := regress_components lib disk j ORDER (S ++ T) files h
  refine ⟨suffix, xs, h1, h2, fun k hk => ?_, fun x0 hx0 a ha b hb => ?_⟩
  · obtain ⟨f, e1, e2, -⟩ := h3 k hk
    exact ⟨f, e1, e2⟩
  · obtain ⟨w, hw, he⟩ := h4 x0 hx0 a ha b hb
    rw [← labelled_eq_fitted S T hS hT] at hw
    exact hw.congr rfl he

/-- C94: with the alias of a tide before a year, the file labelled as the sine of the tide holds the annual sine, and the one
labelled as the annual sine holds the sine of the tide after 2018 -/
theorem regress_mislabelled (lib : Lib) (disk : List Char → Option InMap) (j : Job) (files : List Out)
    (h : regressMaps lib disk j 1 (some [161 / 365.25, 1]) = .ok files) :
    ∃ suffix xs, Stored disk j suffix xs ∧
      (∃ f, files[2]? = some f ∧ f.name = outName j suffix "S2SGRC".toList j.START j.END) ∧
      (∃ f, files[6]? = some f ∧ f.name = outName j suffix "AS".toList j.START j.END) ∧
      ∀ x0 ∈ xs, ∀ a < x0.nlat, ∀ b < x0.nlon, ∃ w, Best xs a b 8 (curve (meanDate xs)
        [.power 0, .power 1, .sine (.cycle 1), .cosine (.cycle 1), .sine (.alias .S2 false), .cosine (.alias .S2 false),
          .sine (.alias .S2 true), .cosine (.alias .S2 true)]) w ∧
        mapAt files 2 a b = w 2 ∧ mapAt files 6 a b = w 6 := by
  obtain ⟨suffix, xs, h1, h2, h3, h4⟩ := regress_components lib disk j 1 _ files h
  have hl : comps 1 (labelled [161 / 365.25, 1]) = [.power 0, .power 1, .sine (.alias .S2 false), .cosine (.alias .S2 false),
      .sine (.alias .S2 true), .cosine (.alias .S2 true), .sine (.cycle 1), .cosine (.cycle 1)] := by decide +kernel
  have hf : comps 1 (fitted [161 / 365.25, 1]) = [.power 0, .power 1, .sine (.cycle 1), .cosine (.cycle 1),
      .sine (.alias .S2 false), .cosine (.alias .S2 false), .sine (.alias .S2 true), .cosine (.alias .S2 true)] := by
    decide +kernel
  rw [hl] at h3 h4
  rw [hf] at h4
  refine ⟨suffix, xs, h2, ?_, ?_, fun x0 hx0 a ha b hb => ?_⟩
  · obtain ⟨f, e1, e2, -⟩ := h3 2 (by simp)
    exact ⟨f, e1, e2⟩
  · obtain ⟨f, e1, e2, -⟩ := h3 6 (by simp)
    exact ⟨f, e1, e2.trans (by simp [Comp.label])⟩
  · obtain ⟨w, hw, he⟩ := h4 x0 hx0 a ha b hb
    exact ⟨w, hw, he 2 (by simp), he 6 (by simp)⟩

end Verif.RegMaps
