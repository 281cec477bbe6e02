import Verif.RegMaps.Lemmas

/-!
# The fit of a cell in terms of the maps on the disk
-/
namespace Verif.RegMaps
open Verif.TimeSeries Finset

/-! ## Columns -/

theorem cycle_cols {n : ℕ} (t : Fin n → ℝ) (tbar : ℝ) (cs : List ℚ) :
    cycleCols t (cs.map fun c : ℚ => (c : ℝ)) =
      ((cs.map Wave.cycle).flatMap fun w => [Comp.sine w, .cosine w]).map fun c i => c.value tbar (t i) := by
  unfold cycleCols
  induction cs with
  | nil => rfl
  | cons c r ih =>
    simp only [List.map_cons, List.flatMap_cons, List.map_append, ih]
    congr 1
    simp [Comp.value, Wave.during, Wave.period]

theorem alias_cols {n : ℕ} (t : Fin n → ℝ) (tbar : ℝ) (T : Tide) :
    aliasingTerms t (T.days : ℝ) =
      ([Wave.alias T false, .alias T true].flatMap fun w => [Comp.sine w, .cosine w]).map fun c i => c.value tbar (t i) := by
  have e : ∀ i, Real.pi * t i * 730.5 / (T.days : ℝ) = 2 * Real.pi * t i / ((T.days : ℝ) / 365.25) := by
    intro i; rw [div_div_eq_mul_div]; ring
  unfold aliasingTerms
  simp only [List.flatMap_cons, List.flatMap_nil, List.map_cons, List.map_nil, List.cons_append,
    List.nil_append, List.cons.injEq, and_true]
  refine ⟨?_, ?_, ?_, ?_⟩ <;> funext i <;> simp only [Comp.value, Wave.during, Wave.period, e] <;> congr

theorem term_cols {n : ℕ} (t : Fin n → ℝ) (tbar : ℝ) (cs : List ℚ) :
    ((cs.flatMap near).map Tide.days).flatMap (fun q : ℚ => aliasingTerms t (q : ℝ)) =
      ((cs.flatMap aliases).flatMap fun w => [Comp.sine w, .cosine w]).map fun c i => c.value tbar (t i) := by
  have h : ∀ ts : List Tide, (ts.map Tide.days).flatMap (fun q : ℚ => aliasingTerms t (q : ℝ)) =
      ((ts.flatMap fun t => [Wave.alias t false, .alias t true]).flatMap fun w => [Comp.sine w, .cosine w]).map
        fun c i => c.value tbar (t i) := by
    intro ts
    induction ts with
    | nil => rfl
    | cons T r ih =>
      rw [List.map_cons, List.flatMap_cons, ih, alias_cols t tbar T]; simp
  rw [h]
  unfold aliases
  simp only [List.flatMap_assoc]

/-- the waves of the fit -/
theorem wave_cols {n : ℕ} (t : Fin n → ℝ) (tbar : ℝ) (p : Plan) (cycles : List ℚ) (hp : p.removed = []) (hq : p.periods = []) :
    cycleCols t ((remaining (plan p cycles) cycles).map fun c : ℚ => (c : ℝ)) ++ termsOf t (plan p cycles) =
      ((fitted cycles).flatMap fun w => [Comp.sine w, .cosine w]).map fun c i => c.value tbar (t i) := by
  unfold termsOf fitted
  rw [remaining_eq p cycles hp, (plan_eq p cycles).2.2.2.1, hq, List.nil_append, cycle_cols t tbar, term_cols t tbar,
    List.flatMap_append, List.map_append]

/-- all columns of the fit of a polynomial and cycles -/
theorem fit_cols {n : ℕ} (t : Fin n → ℝ) (tbar : ℝ) (ORDER : ℕ) (cycles : List ℚ) :
    regressCols t tbar ORDER ((remaining (plan (polyPlan ORDER) cycles) cycles).map fun c : ℚ => (c : ℝ))
      (termsOf t (plan (polyPlan ORDER) cycles)) =
      (comps ORDER (fitted cycles)).map fun c i => c.value tbar (t i) := by
  unfold regressCols comps
  rw [List.append_assoc, wave_cols t tbar (polyPlan ORDER) cycles rfl rfl, List.map_append, List.map_map]
  rfl

/-! ## From samples to maps -/

theorem misfit_eq (l : List (ℕ × InMap)) (xs : List InMap) (h : List.Perm (l.map (·.2)) xs) (a b : ℕ) (f : ℝ → ℝ) :
    misfit xs a b f = ∑ i : Fin l.length, ((l.get i).2.data a b - f (l.get i).2.time) ^ 2 := by
  unfold misfit
  rw [← (h.map _).sum_eq, List.map_map]
  rw [← List.sum_ofFn]
  congr 1
  apply List.ext_getElem <;> simp

theorem meanDate_eq (l : List (ℕ × InMap)) (xs : List InMap) (h : List.Perm (l.map (·.2)) xs) :
    meanDate xs = (∑ i : Fin l.length, (l.get i).2.time) / l.length := by
  unfold meanDate
  rw [← (h.map _).sum_eq, ← h.length_eq, List.map_map, List.length_map]
  congr 1
  rw [← List.sum_ofFn]
  congr 1
  apply List.ext_getElem <;> simp

/-- the sum over the columns -/
theorem design_sum {n : ℕ} (fs : List (ℝ → ℝ)) (t : Fin n → ℝ) (cols : List (Fin n → ℝ))
    (hc : cols = fs.map fun f i => f (t i)) (u : ℕ → ℝ) (i : Fin n) :
    ∑ j, design cols i j * u j.1 = ∑ k ∈ range fs.length, u k * (fs.getD k 0) (t i) := by
  subst hc
  rw [← Fin.sum_univ_eq_sum_range (fun k => u k * (fs.getD k 0) (t i)) fs.length]
  refine Fintype.sum_equiv (finCongr (by simp)) _ _ fun j => ?_
  have hj : j.1 < fs.length := by simpa using j.2
  simp only [design, finCongr_apply, Fin.val_cast]
  rw [mul_comm]
  simp [hj]

/-- least squares for the samples is least squares for the maps -/
theorem best_of_fit (l : List (ℕ × InMap)) (xs : List InMap) (hl : List.Perm (l.map (·.2)) xs) (a b : ℕ)
    (fs : List (ℝ → ℝ)) (cols : List (Fin l.length → ℝ)) (hc : cols = fs.map fun f i => f (l.get i).2.time)
    (erf : ℝ → ℝ) (tppf : ℝ → ℝ → ℝ) (eps : ℝ) (lead : ℕ) (o : TimeSeries.Opts) (r : Result l.length cols.length)
    (h : regressFit erf tppf eps (design cols) (fun i => (l.get i).2.data a b) lead false (.scalar 0) o = some r) :
    Best xs a b fs.length (fun v t => ∑ k ∈ range fs.length, v k * (fs.getD k 0) t) (at' r.beta) := by
  obtain ⟨h1, -, h3⟩ := regressFit_core erf tppf eps _ _ lead false (.scalar 0) o r h
  have hw : weightSpec eps false (.scalar 0) = fun _ : Fin l.length => (1 : ℝ) := rfl
  rw [hw] at h1 h3
  simp only [one_mul] at h1
  have hd : Matrix.diagonal (fun _ : Fin l.length => (1 : ℝ)) = 1 := Matrix.diagonal_one
  rw [hd, Matrix.one_mul] at h3
  have hfr : FullRank (design cols) := (fullRank_iff _).2 (inv_eq_some h3).1
  have hat : ∀ j : Fin cols.length, at' r.beta j.1 = r.beta j := by
    intro j; unfold at'; rw [dif_pos j.2]
  have hs : ∀ (u : ℕ → ℝ), misfit xs a b (fun t => ∑ k ∈ range fs.length, u k * (fs.getD k 0) t) =
      sse (design cols) (fun i => (l.get i).2.data a b) (fun j => u j.1) := by
    intro u
    rw [misfit_eq l xs hl]
    unfold sse
    refine Finset.sum_congr rfl fun i _ => ?_
    rw [design_sum fs (fun i => (l.get i).2.time) cols hc u i]
  have hv : (fun j : Fin cols.length => at' r.beta j.1) = r.beta := funext hat
  have hLS : IsLS (design cols) (fun i => (l.get i).2.data a b) r.beta := fun b' => h1 b'
  constructor
  · intro u
    rw [hs, hs, hv]
    exact hLS _
  · intro u hu k hk
    rw [hs, hs, hv] at hu
    have : IsLS (design cols) (fun i => (l.get i).2.data a b) (fun j => u j.1) := fun b' => hu.trans (hLS b')
    have e := ls_unique hfr this hLS
    have hkc : k < cols.length := by rw [hc]; simpa using hk
    have := congrFun e ⟨k, hkc⟩
    rw [← hat ⟨k, hkc⟩] at this
    exact this

/-! ## Reading -/

/-- the series made of maps with their months -/
noncomputable def gridFrom (nlat nlon : ℕ) (l : List (ℕ × InMap)) : Grid :=
  { n := l.length, nlat := nlat, nlon := nlon, time := fun i => (l.get i).2.time
    month := Time.adjustMonths (l.map fun m => (m.1 : ℤ)), data := fun a b i => (l.get i).2.data a b }

theorem load_ok (disk : List Char → Option InMap) (j : Job) (suffix : List Char) (maps : List (ℕ × InMap))
    (h : load disk j suffix = .ok maps) : maps.map (·.1) = months j ∧ Stored disk j suffix (maps.map (·.2)) ∧
      (maps ≠ [] → j.DATAFORM ≠ "ascii".toList) := by
  unfold load at h
  unfold Stored
  generalize months j = ms at h
  induction ms generalizing maps with
  | nil =>
    rw [List.mapM_nil] at h
    cases h
    exact ⟨rfl, rfl, fun h => absurd rfl h⟩
  | cons m r ih =>
    rw [List.mapM_cons] at h
    cases hd : disk (inName j suffix m) with
    | none =>
      have : readMonth disk j suffix m = .error .file := by unfold readMonth; rw [hd]
      rw [this] at h; cases h
    | some x =>
      by_cases hasc : j.DATAFORM = "ascii".toList
      · have : readMonth disk j suffix m = .error .text := by
          unfold readMonth; rw [hd]; simp only; rw [if_pos hasc]
        rw [this] at h; cases h
      have : readMonth disk j suffix m = .ok (m, x) := by
        unfold readMonth; rw [hd]; simp only; rw [if_neg hasc]
      rw [this] at h
      cases hr : r.mapM (readMonth disk j suffix) with
      | error e => rw [hr] at h; cases h
      | ok ys =>
        rw [hr] at h
        cases h
        obtain ⟨h1, h2, -⟩ := ih ys hr
        refine ⟨?_, ?_, fun _ => hasc⟩
        · show m :: ys.map (·.1) = _
          rw [h1]
        · show disk _ :: _ = some x :: _
          rw [hd, h2]

/-- what has been read when reading succeeds -/
theorem input_ok (disk : List Char → Option InMap) (j : Job) (suffix : List Char) (g : Grid)
    (h : input disk j = .ok (suffix, g)) :
    suffixOf j.DATAFORM = .ok suffix ∧ j.DATAFORM ≠ "ascii".toList ∧ ∃ xs l nlat nlon, Stored disk j suffix xs ∧ xs ≠ [] ∧ g = gridFrom nlat nlon l ∧
      List.Perm l ((months j).zip xs) ∧ List.Perm (l.map (·.2)) xs ∧ List.Perm (l.map (·.1)) (months j) ∧
      l.Pairwise (fun a b => a.2.time ≤ b.2.time) ∧ ∀ x ∈ xs, x.nlat = nlat ∧ x.nlon = nlon := by
  unfold input at h
  cases hs : suffixOf j.DATAFORM with
  | error e => rw [hs] at h; cases h
  | ok s =>
    rw [hs] at h
    simp only at h
    cases hl : load disk j s with
    | error e => rw [hl] at h; cases h
    | ok maps =>
      rw [hl] at h
      simp only at h
      cases hg : gridOf maps with
      | error e => rw [hg] at h; cases h
      | ok g' =>
        rw [hg] at h
        cases h
        obtain ⟨hm, hst, hna⟩ := load_ok disk j suffix maps hl
        refine ⟨rfl, hna (by rintro rfl; cases hg), maps.map (·.2), ?_⟩
        cases maps with
        | nil => cases hg
        | cons m0 r =>
          unfold gridOf at hg
          simp only at hg
          split_ifs at hg with hsame
          cases hg
          have hp : List.Perm (List.insertionSort (fun a b => a.2.time ≤ b.2.time) (m0 :: r)) (m0 :: r) :=
            List.perm_insertionSort _ _
          refine ⟨List.insertionSort (fun a b => a.2.time ≤ b.2.time) (m0 :: r), m0.2.nlat, m0.2.nlon, hst, by simp, rfl,
            ?_, hp.map _, ?_, ?_, ?_⟩
          · refine hp.trans ?_
            rw [← hm, List.zip_map']
            simp
          · rw [← hm]; exact hp.map _
          · have : Std.Total (fun a b : ℕ × InMap => a.2.time ≤ b.2.time) := ⟨fun a b => le_total _ _⟩
            have : IsTrans (ℕ × InMap) (fun a b : ℕ × InMap => a.2.time ≤ b.2.time) := ⟨fun a b c h h' => le_trans h h'⟩
            exact List.pairwise_insertionSort _ _
          · intro x hx
            obtain ⟨m, hm, rfl⟩ := List.mem_map.1 hx
            exact hsame m hm

/-- reading of maps on the disk -/
theorem load_stored (disk : List Char → Option InMap) (j : Job) (suffix : List Char) (xs : List InMap)
    (hs : Stored disk j suffix xs) (ha : j.DATAFORM ≠ "ascii".toList) : load disk j suffix = .ok ((months j).zip xs) := by
  unfold load
  unfold Stored at hs
  generalize months j = ms at hs ⊢
  induction ms generalizing xs with
  | nil => rfl
  | cons m r ih =>
    cases xs with
    | nil => cases hs
    | cons x xs =>
      rw [List.map_cons, List.map_cons] at hs
      obtain ⟨h1, h2⟩ := List.cons.inj hs
      have hr : readMonth disk j suffix m = .ok (m, x) := by
        unfold readMonth; rw [h1]; simp only; rw [if_neg ha]
      rw [List.mapM_cons, hr, ih xs h2]
      rfl

/-- reading succeeds for maps on one grid -/
theorem input_stored (disk : List Char → Option InMap) (j : Job) (suffix : List Char) (xs : List InMap) (nlat nlon : ℕ)
    (hsuf : suffixOf j.DATAFORM = .ok suffix) (ha : j.DATAFORM ≠ "ascii".toList) (hs : Stored disk j suffix xs) (hne : xs ≠ [])
    (hg : ∀ x ∈ xs, x.nlat = nlat ∧ x.nlon = nlon) : ∃ g, input disk j = .ok (suffix, g) ∧ g.nlat = nlat ∧ g.nlon = nlon := by
  unfold input
  rw [hsuf]
  simp only
  rw [load_stored disk j suffix xs hs ha]
  simp only
  obtain ⟨x0, r, rfl⟩ := List.exists_cons_of_ne_nil hne
  have hlen : (months j).length = (x0 :: r).length := by
    have := congrArg List.length hs
    simpa using this
  have hmem : ∀ m ∈ (months j).zip (x0 :: r), m.2 ∈ x0 :: r := fun m hm => (List.of_mem_zip hm).2
  cases hm : months j with
  | nil => rw [hm] at hlen; simp at hlen
  | cons m ms =>
    rw [hm] at hmem
    simp only [List.zip_cons_cons] at hmem ⊢
    unfold gridOf
    simp only
    rw [if_pos]
    · exact ⟨_, rfl, hg x0 (by simp)⟩
    · intro q hq
      have h1 := hg q.2 (hmem q hq)
      have h2 := hg x0 (by simp)
      exact ⟨h1.1.trans h2.1.symm, h1.2.trans h2.2.symm⟩

end Verif.RegMaps
