import Verif.Fingerprint.Spec

/-!
# C98: maps of sea level change of a load file
-/
namespace Verif.Fingerprint
open Verif.Harmonics Verif.SeaLevel Verif.Analysis Verif.Legendre

/-! ## Lemmas -/

/-- supplied Legendre functions are those the solver would compute -/
theorem plm_supplied (E : Units.Earth) (tol scalef : ℝ) (o : Opts) (m : Mask) (p : ℕ → ℕ → ℕ → ℝ)
    (hp : plmAll tol scalef o.LMAX o.LMAX (fun j => ((m.lat.getD j 0 : ℚ) : ℝ)) none = some p) (load : CSlm) :
    seaLevel E tol scalef (solverArgs o m (some p)) load = seaLevel E tol scalef (solverArgs o m none) load := by
  unfold seaLevel
  rw [show plmAll tol scalef (solverArgs o m (some p)).LMAX (solverArgs o m (some p)).LMAX (solverArgs o m (some p)).glat
    (solverArgs o m (some p)).PLM = some p from rfl]
  rw [show plmAll tol scalef (solverArgs o m none).LMAX (solverArgs o m none).LMAX (solverArgs o m none).glat
    (solverArgs o m none).PLM = some p from hp]
  rw [show polarLove (solverArgs o m (some p)) = polarLove (solverArgs o m none) from rfl]
  rfl

/-- the series whose dates are looped over -/
noncomputable def prepared (o : Opts) (load : Harm ℝ) : Harm ℝ := Maps.expandDims (truncate load (some o.LMAX) 0 (some o.LMAX))

theorem prepared_nt (o : Opts) (load : Harm ℝ) : (prepared o load).nt = some (dates load) := by
  unfold prepared Maps.expandDims dates
  cases h : load.nt with
  | none => simp [truncate, h]
  | some n => simp [truncate, h]

theorem prepared_time (o : Opts) (load : Harm ℝ) : (prepared o load).time = load.time ∧ (prepared o load).month = load.month := by
  unfold prepared Maps.expandDims
  split <;> exact ⟨rfl, rfl⟩

theorem prepared_load (o : Opts) (load : Harm ℝ) (t : ℕ) :
    (⟨fun l k => (prepared o load).clm l k t, fun l k => (prepared o load).slm l k t⟩ : CSlm) = loadAt o.LMAX load t := by
  have h : ∀ l m : ℕ, (0 ≤ l ∧ l < bound1 o.LMAX load.lmax ∧ m < bound1 (if o.LMAX ≠ 0 then o.LMAX else o.LMAX) load.mmax) ↔
      (l ≤ o.LMAX ∧ l ≤ load.lmax ∧ m ≤ o.LMAX ∧ m ≤ load.mmax) := by
    intro l m
    unfold bound1
    split_ifs <;> omega
  have hc : ∀ l m, (prepared o load).clm l m t = (truncate load (some o.LMAX) 0 (some o.LMAX)).clm l m t ∧
      (prepared o load).slm l m t = (truncate load (some o.LMAX) 0 (some o.LMAX)).slm l m t := by
    intro l m
    unfold prepared Maps.expandDims
    split <;> exact ⟨rfl, rfl⟩
  unfold loadAt
  congr 1
  · funext l m
    rw [(hc l m).1]
    unfold truncate
    simp only [Option.getD_some]
    exact if_congr (h l m) rfl rfl
  · funext l m
    rw [(hc l m).2]
    unfold truncate
    simp only [Option.getD_some]
    exact if_congr (h l m) rfl rfl

/-- one date of the series: what the solver gives for the load of this date -/
theorem map_of (E : Units.Earth) (tol scalef : ℝ) (o : Opts) (m : Mask) (p : ℕ → ℕ → ℕ → ℝ)
    (hp : plmAll tol scalef o.LMAX o.LMAX (fun j => ((m.lat.getD j 0 : ℚ) : ℝ)) none = some p) (load : Harm ℝ)
    (hd : o.DATE = true → load.WF) (t : ℕ) (ht : t < dates load) :
    mapOf E tol scalef o m p (prepared o load) t =
      (seaLevel E tol scalef (solverArgs o m none) (loadAt o.LMAX load t)).map fun s j i => s i j := by
  have hs : ∃ y, slice o.DATE (prepared o load) t = .ok y ∧
      (⟨fun l k => y.clm l k 0, fun l k => y.slm l k 0⟩ : CSlm) = loadAt o.LMAX load t := by
    unfold slice
    by_cases h : o.DATE = true
    · rw [if_pos h]
      obtain ⟨w1, w2⟩ := hd h
      unfold index
      rw [prepared_nt, (prepared_time o load).1, (prepared_time o load).2]
      have h1 : t < load.time.length := by rw [w1]; exact ht
      have h2 : t < load.month.length := by rw [w2]; exact ht
      rw [List.getElem?_eq_getElem h1, List.getElem?_eq_getElem h2]
      simp only [if_pos ht]
      exact ⟨_, rfl, prepared_load o load t⟩
    · rw [if_neg h, prepared_nt]
      simp only [if_pos ht]
      exact ⟨_, rfl, prepared_load o load t⟩
  obtain ⟨y, h1, h2⟩ := hs
  unfold mapOf
  rw [h1]
  simp only
  rw [plm_supplied E tol scalef o m p hp, h2]

theorem mapM_range_get {α : Type} (f : ℕ → Option α) (d : α) (n : ℕ) (fs : List α) (h : (List.range n).mapM f = some fs) (t : ℕ) (ht : t < n) :
    f t = some (fs.getD t d) := by
  have key : ∀ (l : List ℕ) (fs : List α), l.mapM f = some fs → ∀ k (hk : k < l.length), f l[k] = some (fs.getD k d) := by
    intro l
    induction l with
    | nil => intro fs _ k hk; simp at hk
    | cons x xs ih =>
      intro fs hfs k hk
      rw [List.mapM_cons] at hfs
      rcases hx : f x with _ | a
      · rw [hx] at hfs; simp at hfs
      rcases hxs : xs.mapM f with _ | as
      · rw [hx, hxs] at hfs; simp at hfs
      rw [hx, hxs] at hfs
      simp only [Option.bind_eq_bind, Option.bind_some, Option.pure_def, Option.some.injEq] at hfs
      subst hfs
      cases k with
      | zero => simpa using hx
      | succ k => simpa using ih as hxs k (by simpa using hk)
  have := key _ fs h t (by simpa using ht)
  simpa using this

theorem mapM_range_some {α : Type} (f : ℕ → Option α) (n : ℕ) (h : ∀ t < n, ∃ a, f t = some a) : ∃ fs, (List.range n).mapM f = some fs := by
  have key : ∀ l : List ℕ, (∀ t ∈ l, ∃ a, f t = some a) → ∃ fs, l.mapM f = some fs := by
    intro l
    induction l with
    | nil => intro _; exact ⟨[], rfl⟩
    | cons x xs ih =>
      intro hx
      obtain ⟨a, ha⟩ := hx x List.mem_cons_self
      obtain ⟨fs, hfs⟩ := ih fun t ht => hx t (List.mem_cons_of_mem _ ht)
      exact ⟨a :: fs, by simp [List.mapM_cons, ha, hfs]⟩
  exact key _ fun t ht => h t (List.mem_range.1 ht)

/-! ## The maps -/

/-- what the program makes: everything but the values -/
theorem fingerprints_some (E : Units.Earth) (tol scalef : ℝ) (o : Opts) (m : Mask) (load : Harm ℝ) (hd : o.DATE = true → load.WF)
    (s : Sea) (hs : fingerprints E tol scalef o m load = some s) :
    s.lon = m.lon ∧ s.lat = m.lat ∧ s.nt = (if dates load = 1 then none else some (dates load)) ∧
    s.time = (if o.DATE then some load.time else none) ∧ (∀ j i t, s.mask j i t ↔ s.data j i t = 0) ∧
    ∀ t < dates load, seaLevel E tol scalef (solverArgs o m none) (loadAt o.LMAX load t) = some fun i j => s.data j i t := by
  unfold fingerprints at hs
  rw [show Maps.expandDims (truncate load (some o.LMAX) 0 (some o.LMAX)) = prepared o load from rfl] at hs
  simp only [prepared_nt, Option.getD_some] at hs
  rcases hp : plmAll tol scalef o.LMAX o.LMAX (fun j => ((m.lat.getD j 0 : ℚ) : ℝ)) none with _ | p
  · rw [hp] at hs; simp at hs
  rw [hp] at hs
  simp only at hs
  rcases hm : mapsOf E tol scalef o m p (prepared o load) (dates load) with _ | fs
  · rw [hm] at hs; simp at hs
  rw [hm] at hs
  simp only [Option.some.injEq] at hs
  subst hs
  refine ⟨rfl, rfl, rfl, ?_, fun j i t => Iff.rfl, ?_⟩
  · simp only [(prepared_time o load).1]
  · intro t ht
    have h1 := mapM_range_get _ (fun _ _ => 0) _ fs hm t ht
    rw [map_of E tol scalef o m p hp load hd t ht, Option.map_eq_some_iff] at h1
    obtain ⟨a, h1, h2⟩ := h1
    rw [h1]
    congr 1
    funext i j
    exact congrFun (congrFun h2 j) i

theorem land_iff (o : Opts) (m : Mask) (P) (j i : ℕ) : ((solverArgs o m P).land i j = 1 ↔ IsLand m j i) ∧
    ((solverArgs o m P).land i j = 0 ↔ ¬ IsLand m j i) := by
  classical
  have he : (solverArgs o m P).land i j = if IsLand m j i then 1 else 0 := by
    change landFunction m j i = _
    unfold landFunction
    exact if_congr Iff.rfl rfl rfl
  rw [he]
  by_cases h : IsLand m j i
  · rw [if_pos h]; simp [h]
  · rw [if_neg h]; simp [h]

theorem layer_mass (E : Units.Earth) (o : Opts) (m : Mask) (f : ℕ → ℕ → ℝ) :
    layerMass E (solverArgs o m none) (fun _ _ => True) (fun i j => f j i) = waterMass E m f := by
  unfold layerMass waterMass
  simp only [if_true]
  rw [Finset.sum_comm, Finset.mul_sum]
  apply Finset.sum_congr rfl
  intro j _
  rw [Finset.mul_sum]
  apply Finset.sum_congr rfl
  intro i _
  unfold cellArea
  change Units.rad_e E ^ 2 * (f j i * (Real.sin (colat _) * _ * _)) = _
  unfold colat
  change Units.rad_e E ^ 2 * (f j i * (Real.sin ((90 - ((m.lat.getD j 0 : ℚ) : ℝ)) * Real.pi / 180) *
    stepRad (fun i => ((m.lon.getD i 0 : ℚ) : ℝ)) * stepRad (fun j => ((m.lat.getD j 0 : ℚ) : ℝ)))) = _
  ring

/-- **C98** for every well-posed problem and at least one iteration there is one map per date of the load file, with the dates of the
file, and each solves the sea level equation for the load of its date up to degree `LMAX` -/
theorem fingerprint_maps (E : Units.Earth) (tol scalef : ℝ) (o : Opts) (m : Mask) (load : Harm ℝ) (hd : o.DATE = true → load.WF)
    (hw : WellPosed E scalef (solverArgs o m none)) (hI : 1 ≤ o.ITERATIONS) :
    ∃ s, fingerprints E tol scalef o m load = some s ∧ s.lon = m.lon ∧ s.lat = m.lat ∧
      s.nt = (if dates load = 1 then none else some (dates load)) ∧ s.time = (if o.DATE then some load.time else none) ∧
      ∀ t < dates load, IsFingerprint E tol scalef o m (loadAt o.LMAX load t) fun j i => s.data j i t := by
  have hL : 2 ≤ o.LMAX := by
    rcases hw.legendre with ⟨P, e, _⟩ | ⟨_, _, h, _⟩
    · exact absurd e (by simp [solverArgs])
    · exact h
  have hp : ∃ p, plmAll tol scalef o.LMAX o.LMAX (fun j => ((m.lat.getD j 0 : ℚ) : ℝ)) none = some p := by
    unfold plmAll
    simp only
    rw [if_neg (by omega)]
    exact ⟨_, rfl⟩
  obtain ⟨p, hp⟩ := hp
  obtain ⟨fs, hfs⟩ := mapM_range_some (mapOf E tol scalef o m p (prepared o load)) (dates load) (by
    intro t ht
    rw [map_of E tol scalef o m p hp load hd t ht]
    obtain ⟨sea, h⟩ := (seaLevel_returns E tol scalef (solverArgs o m none) hw (loadAt o.LMAX load t)).2 hI
    rw [h]
    exact ⟨_, rfl⟩)
  have hex : ∃ s, fingerprints E tol scalef o m load = some s := by
    unfold fingerprints
    rw [show Maps.expandDims (truncate load (some o.LMAX) 0 (some o.LMAX)) = prepared o load from rfl]
    simp only [prepared_nt, Option.getD_some]
    rw [hp]
    simp only
    rw [show mapsOf E tol scalef o m p (prepared o load) (dates load) = some fs from hfs]
    exact ⟨_, rfl⟩
  obtain ⟨s, hs⟩ := hex
  obtain ⟨h1, h2, h3, h4, h5, h6⟩ := fingerprints_some E tol scalef o m load hd s hs
  refine ⟨s, hs, h1, h2, h3, h4, ?_⟩
  intro t ht
  have hsea := h6 t ht
  constructor
  · intro j i hl
    exact seaLevel_land E tol scalef _ _ _ hsea i j ((land_iff o m none j i).1.2 hl)
  · rw [← layer_mass E o m]
    exact seaLevel_mass E tol scalef _ _ _ hw.radius hw.legendre hw.shape rfl hsea
  · obtain ⟨k2, h2, kf, g, w, d, e1, e2, e3, e4, e5⟩ := seaLevel_equation E tol scalef _ _ _ hw.radius hw.legendre hw.shape
      (by change 1 ≤ o.LMAX; omega) hw.scale hsea
    refine ⟨k2, h2, kf, fun j i => g i j, w, d, e1, ?_, ?_, e4, ?_⟩
    · intro j i hl
      exact e2 i j ((land_iff o m none j i).1.2 hl)
    · rw [← layer_mass E o m]; exact e3
    · intro j i hl
      have h0 := (land_iff o m none j i).2.2 hl
      have := e5 i j (Or.inr h0) (by rw [h0]; norm_num)
      rw [this, h0]
      change surface E (solverArgs o m none) k2 h2 kf w (loadAt o.LMAX load t) ((m.lon.getD i 0 : ℚ) : ℝ) ((m.lat.getD j 0 : ℚ) : ℝ) + _ = _
      ring

/-- **C98** the map of a date depends on nothing but the coefficients of this date up to degree `LMAX`: other dates, their number
and order, and higher degrees have no effect -/
theorem fingerprint_local (E : Units.Earth) (tol scalef : ℝ) (o : Opts) (m : Mask) (load load' : Harm ℝ)
    (hd : o.DATE = true → load.WF) (hd' : o.DATE = true → load'.WF) (s s' : Sea)
    (hs : fingerprints E tol scalef o m load = some s) (hs' : fingerprints E tol scalef o m load' = some s')
    (t t' : ℕ) (ht : t < dates load) (ht' : t' < dates load') (he : loadAt o.LMAX load t = loadAt o.LMAX load' t') (j i : ℕ) :
    s.data j i t = s'.data j i t' := by
  have h1 := (fingerprints_some E tol scalef o m load hd s hs).2.2.2.2.2 t ht
  have h2 := (fingerprints_some E tol scalef o m load' hd' s' hs').2.2.2.2.2 t' ht'
  rw [he, h2, Option.some.injEq] at h1
  exact (congrFun (congrFun h1 i) j).symm

/-- **C98** a load multiplied by a factor gives maps multiplied by this factor -/
theorem fingerprint_scale (E : Units.Earth) (tol scalef : ℝ) (o : Opts) (m : Mask) (load : Harm ℝ) (hd : o.DATE = true → load.WF)
    (a : ℝ) (ha : a ≠ 0) (s s' : Sea) (hs : fingerprints E tol scalef o m load = some s)
    (hs' : fingerprints E tol scalef o m (Harmonics.scale load a) = some s') (t : ℕ) (ht : t < dates load) (j i : ℕ) :
    s'.data j i t = a * s.data j i t := by
  have h1 := (fingerprints_some E tol scalef o m load hd s hs).2.2.2.2.2 t ht
  have h2 := (fingerprints_some E tol scalef o m (Harmonics.scale load a) hd s' hs').2.2.2.2.2 t ht
  have he : loadAt o.LMAX (Harmonics.scale load a) t = scaleLoad a (loadAt o.LMAX load t) := by
    unfold loadAt scaleLoad Harmonics.scale
    congr 1 <;> funext l m <;> simp only <;> split_ifs <;> simp
  rw [he, seaLevel_scale E tol scalef _ (by change (1 / 10 ^ 280 : ℝ) ≠ 0; positivity) rfl a ha, h1] at h2
  simp only [Option.map_some, Option.some.injEq] at h2
  exact (congrFun (congrFun h2 i) j).symm

/-- **C98** deviation: Love numbers in the frame of the centre of mass of the Earth system, which the program offers, give no finite
map; neither does less than one iteration -/
theorem fingerprint_refused (E : Units.Earth) (tol scalef : ℝ) (o : Opts) (m : Mask) (load : Harm ℝ) (hd : o.DATE = true → load.WF)
    (h0 : 0 < dates load) (h : (1 ≤ o.LMAX ∧ o.kl 1 = -1) ∨ o.ITERATIONS < 1) : fingerprints E tol scalef o m load = none := by
  rcases hs : fingerprints E tol scalef o m load with _ | s
  · rfl
  exfalso
  have h1 := (fingerprints_some E tol scalef o m load hd s hs).2.2.2.2.2 0 h0
  rcases h with ⟨h2, h3⟩ | h2
  · rw [seaLevel_cm_frame E tol scalef _ _ h2 h3] at h1
    simp at h1
  · obtain ⟨k, h, f, p, n, -, -, -, hn, -⟩ := seaLevel_state E tol scalef _ _ _ h1
    change n + 1 ≤ o.ITERATIONS.toNat at hn
    omega

end Verif.Fingerprint
