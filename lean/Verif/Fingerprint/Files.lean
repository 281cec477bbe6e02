import Verif.Fingerprint.Props

/-!
# C98: the files with maps of sea level change
-/
namespace Verif.Fingerprint
open Verif.Harmonics Verif.SeaLevel Verif.Analysis Verif.Legendre

/-- **C98** files with dates in netCDF4 or HDF5: every date of the load file has its map, land included (zeros) -/
theorem grid_file (E : Units.Earth) (tol scalef : ℝ) (f : Form) (hf : f ≠ .ascii) (o : Opts) (hD : o.DATE = true) (m : Mask)
    (load : Harm ℝ) (hd : load.WF) (hw : WellPosed E scalef (solverArgs o m none)) (hI : 1 ≤ o.ITERATIONS) :
    ∃ data, run E tol scalef f o m load = some (.grid 3 (dates load) data (some load.time)) ∧
      ∀ t < dates load, IsFingerprint E tol scalef o m (loadAt o.LMAX load t) fun j i => data j i t := by
  obtain ⟨s, hs, -, -, h3, h4, h5⟩ := fingerprint_maps E tol scalef o m load (fun _ => hd) hw hI
  refine ⟨s.data, ?_, h5⟩
  have hnt : s.nt.getD 1 = dates load := by
    rw [h3]; split_ifs with h
    · exact h.symm
    · rfl
  unfold run
  rw [hs]
  cases f with
  | ascii => exact absurd rfl hf
  | netCDF4 => simp [toNetCDF, hD, hnt, h4]
  | HDF5 => simp [toHDF5, hD, hnt, h4]

/-- **C98** without dates, a single field is written as a single map -/
theorem single_file (E : Units.Earth) (tol scalef : ℝ) (f : Form) (hf : f ≠ .ascii) (o : Opts) (hD : o.DATE = false) (m : Mask)
    (load : Harm ℝ) (h1 : dates load = 1) (hw : WellPosed E scalef (solverArgs o m none)) (hI : 1 ≤ o.ITERATIONS) :
    ∃ data, run E tol scalef f o m load = some (.grid 2 1 data none) ∧
      IsFingerprint E tol scalef o m (loadAt o.LMAX load 0) fun j i => data j i 0 := by
  obtain ⟨s, hs, -, -, h3, h4, h5⟩ := fingerprint_maps E tol scalef o m load (by rw [hD]; exact fun h => absurd h (by decide)) hw hI
  refine ⟨s.data, ?_, h5 0 (by omega)⟩
  rw [if_pos h1] at h3
  unfold run
  rw [hs]
  cases f with
  | ascii => exact absurd rfl hf
  | netCDF4 => simp [toNetCDF, hD, h3]
  | HDF5 => simp [toHDF5, hD, h3]

/-- **C98** deviation: a series without dates cannot be written to netCDF4, and no series can be written as text: the file is opened and
left unfinished -/
theorem series_fails (E : Units.Earth) (tol scalef : ℝ) (o : Opts) (m : Mask) (load : Harm ℝ) (hd : o.DATE = true → load.WF)
    (h1 : dates load ≠ 1) (hw : WellPosed E scalef (solverArgs o m none)) (hI : 1 ≤ o.ITERATIONS) :
    run E tol scalef .ascii o m load = some .broken ∧ (o.DATE = false → run E tol scalef .netCDF4 o m load = some .broken) := by
  obtain ⟨s, hs, -, -, h3, -⟩ := fingerprint_maps E tol scalef o m load hd hw hI
  rw [if_neg h1] at h3
  unfold run
  rw [hs]
  refine ⟨?_, fun hD => ?_⟩
  · simp [toAscii, h3]
  · simp [toNetCDF, hD, h3]

/-- the cells of a map in the order of text files: latitude by latitude -/
def cells (m : Mask) : List (ℕ × ℕ) := (List.range m.lat.length).flatMap fun j => (List.range m.lon.length).map fun i => (j, i)

open Classical in
/-- the text of a map: the cells whose value is not zero -/
noncomputable def textOf (m : Mask) (time : Option ℚ) (f : ℕ → ℕ → ℝ) : List Row :=
  ((cells m).filter fun c => decide (f c.1 c.2 ≠ 0)).map fun c => ⟨m.lon.getD c.2 0, m.lat.getD c.1 0, f c.1 c.2, time⟩

/-- **C98** text files: the lines are the cells with a change, in order of latitude and longitude, none of them on land; together
they still hold all the water the load has lost -/
theorem text_file (E : Units.Earth) (tol scalef : ℝ) (o : Opts) (m : Mask) (load : Harm ℝ) (hd : o.DATE = true → load.WF)
    (h1 : dates load = 1) (hw : WellPosed E scalef (solverArgs o m none)) (hI : 1 ≤ o.ITERATIONS) :
    ∃ data : ℕ → ℕ → ℝ, IsFingerprint E tol scalef o m (loadAt o.LMAX load 0) data ∧
      run E tol scalef .ascii o m load = some (.text (textOf m (if o.DATE then load.time.head? else none) data)) := by
  obtain ⟨s, hs, e1, e2, h3, h4, h5⟩ := fingerprint_maps E tol scalef o m load hd hw hI
  have h6 := (fingerprints_some E tol scalef o m load hd s hs).2.2.2.2.1
  refine ⟨fun j i => s.data j i 0, h5 0 (by omega), ?_⟩
  rw [if_pos h1] at h3
  unfold run
  rw [hs]
  simp only [Option.map_some, toAscii, h3, Option.some.injEq, Out.text.injEq]
  unfold textOf cells
  rw [e1, e2, List.filter_flatMap, List.map_flatMap]
  congr 1
  funext j
  rw [List.filter_map, List.map_map]
  congr 1
  · funext i
    have ht : (if o.DATE = true then some ((s.time.getD []).getD 0 0) else none) = (if o.DATE = true then load.time.head? else none) := by
      by_cases hD : o.DATE = true
      · rw [if_pos hD, if_pos hD, h4, if_pos hD]
        have := (hd hD).1
        rw [show load.nt.getD 1 = 1 from h1] at this
        cases ht : load.time with
        | nil => rw [ht] at this; simp at this
        | cons a as => simp
      · rw [if_neg hD, if_neg hD]
    simpa using ht
  · apply List.filter_congr
    intro i _
    simp [h6]

/-- the water of the lines of a text file: value times area of the cell -/
theorem text_water (E : Units.Earth) (m : Mask) (time : Option ℚ) (f : ℕ → ℕ → ℝ) :
    ((textOf m time f).map fun r : Row => r.value * (Units.rad_e E ^ 2 * (Real.sin ((90 - ((r.lat : ℚ) : ℝ)) * Real.pi / 180) *
      stepRad (fun i => ((m.lon.getD i 0 : ℚ) : ℝ)) * stepRad (fun j => ((m.lat.getD j 0 : ℚ) : ℝ))))).sum = waterMass E m f := by
  have key : ∀ (cs : List (ℕ × ℕ)), (((cs.filter fun c => decide (f c.1 c.2 ≠ 0)).map fun c : ℕ × ℕ => f c.1 c.2 * cellArea E m c.1).sum) =
      (cs.map fun c : ℕ × ℕ => f c.1 c.2 * cellArea E m c.1).sum := by
    intro cs
    induction cs with
    | nil => rfl
    | cons c cs ih =>
      rw [List.filter_cons]
      by_cases h : f c.1 c.2 ≠ 0
      · rw [if_pos (by simpa using h), List.map_cons, List.sum_cons, List.map_cons, List.sum_cons, ih]
      · rw [if_neg (by simpa using h), List.map_cons, List.sum_cons, ih]
        push Not at h
        rw [h]; ring
  unfold textOf
  rw [List.map_map]
  refine (Eq.trans ?_ (key (cells m))).trans ?_
  · congr
  · unfold cells waterMass
    rw [List.map_flatMap]
    simp only [List.map_map, List.flatMap, List.sum_flatten, Function.comp_def]
    rw [sum_map_range]
    apply Finset.sum_congr rfl
    intro j _
    rw [sum_map_range]

/-- **C98** nothing is lost in text files: the water of the lines is what the load has lost -/
theorem text_mass (E : Units.Earth) (tol scalef : ℝ) (o : Opts) (m : Mask) (load : Harm ℝ) (hd : o.DATE = true → load.WF)
    (h1 : dates load = 1) (hw : WellPosed E scalef (solverArgs o m none)) (hI : 1 ≤ o.ITERATIONS) :
    ∃ rows, run E tol scalef .ascii o m load = some (.text rows) ∧
      (rows.map fun r : Row => r.value * (Units.rad_e E ^ 2 * (Real.sin ((90 - ((r.lat : ℚ) : ℝ)) * Real.pi / 180) *
        stepRad (fun i => ((m.lon.getD i 0 : ℚ) : ℝ)) * stepRad (fun j => ((m.lat.getD j 0 : ℚ) : ℝ))))).sum =
        -(Units.mass E * (loadAt o.LMAX load 0).clm 0 0) := by
  obtain ⟨data, h, hr⟩ := text_file E tol scalef o m load hd h1 hw hI
  exact ⟨_, hr, by rw [text_water, h.mass]⟩

/-! ## A case that meets the hypotheses -/

/-- a mask of two by three cells: land, an ice shelf and ocean -/
def demoMask : Mask := ⟨[0, 120, 240], [45, -45], fun j i => if j = 0 ∧ i = 0 then 1 else if j = 0 ∧ i = 1 then 4 else 0⟩

/-- options of the example -/
noncomputable def demoOpts : Opts := ⟨4, fun l => if l = 0 then 0 else -1, fun l => if l = 0 then 0 else -0.3, true, .code 0, .code 0, 6, true⟩

theorem demo_args_land (i j : ℕ) : (solverArgs demoOpts demoMask none).land i j = demo.land i j := by
  change landFunction demoMask j i = if i = 0 ∧ j = 0 then 1 else 0
  unfold landFunction
  by_cases h1 : i = 0 ∧ j = 0
  · obtain ⟨rfl, rfl⟩ := h1
    norm_num [demoMask]
  · have h2 : ¬ (j = 0 ∧ i = 0) := fun h => h1 ⟨h.2, h.1⟩
    rw [if_neg h1]
    by_cases h3 : j = 0 ∧ i = 1
    · have e : demoMask.code j i = 4 := by simp only [demoMask]; rw [if_neg h2, if_pos h3]
      rw [e]; norm_num
    · have e : demoMask.code j i = 0 := by simp only [demoMask]; rw [if_neg h2, if_neg h3]
      rw [e]; norm_num

theorem demo_wellPosed : WellPosed Units.Earth.default (1 / 10 ^ 280) (solverArgs demoOpts demoMask none) where
  radius := SeaLevel.demo_wellPosed.radius
  nphi := by decide
  nth := by decide
  shape := by decide
  legendre := Or.inr ⟨rfl, by positivity, by decide, by
    intro j hj
    have : j = 0 ∨ j = 1 := by change j < 2 at hj; omega
    rcases this with rfl | rfl <;> norm_num [solverArgs, demoMask]⟩
  scale := by change (1 / 10 ^ 280 : ℝ) ≠ 0; positivity
  area := by
    have h := SeaLevel.demo_wellPosed.area
    have e : layerMass Units.Earth.default (solverArgs demoOpts demoMask none) (fun _ _ => True)
        (fun i j => 1 - (solverArgs demoOpts demoMask none).land i j) =
        layerMass Units.Earth.default demo (fun _ _ => True) (fun i j => 1 - demo.land i j) := by
      unfold layerMass
      congr 1
      have e1 : stepRad (solverArgs demoOpts demoMask none).glon = stepRad demo.glon := by
        unfold stepRad; simp [solverArgs, demoMask, demo]
      have e2 : stepRad (solverArgs demoOpts demoMask none).glat = stepRad demo.glat := by
        unfold stepRad; simp [solverArgs, demoMask, demo]; norm_num
      rw [e1, e2]
      change ∑ i ∈ Finset.range 3, ∑ j ∈ Finset.range 2, _ = ∑ i ∈ Finset.range 3, ∑ j ∈ Finset.range 2, _
      apply Finset.sum_congr rfl; intro i _
      apply Finset.sum_congr rfl; intro j hj
      have hg : (solverArgs demoOpts demoMask none).glat j = demo.glat j := by
        have : j = 0 ∨ j = 1 := by have := Finset.mem_range.1 hj; omega
        rcases this with rfl | rfl <;> simp [solverArgs, demoMask, demo]
        norm_num
      simp only [if_true]
      rw [hg]
      congr 2
      exact demo_args_land i j
    rw [e]; exact h
  love := SeaLevel.demo_wellPosed.love
  polar := SeaLevel.demo_wellPosed.polar

/-- two dates -/
noncomputable def demoLoad : Harm ℝ := ⟨60, 60, some 2, fun l _ t => if l = 0 then 1 + t else 1 / (l + t), fun _ m t => if m = 0 then 0 else t, [2004, 2005], [24, 36]⟩

example : ∃ data, run Units.Earth.default 1e-15 (1 / 10 ^ 280) .netCDF4 demoOpts demoMask demoLoad =
    some (.grid 3 2 data (some [2004, 2005])) ∧
    waterMass Units.Earth.default demoMask (fun j i => data j i 1) = -(Units.mass Units.Earth.default * 2) ∧ data 0 0 1 = 0 := by
  obtain ⟨data, h1, h2⟩ := grid_file Units.Earth.default 1e-15 (1 / 10 ^ 280) .netCDF4 (by decide) demoOpts rfl demoMask demoLoad
    ⟨rfl, rfl⟩ demo_wellPosed (by decide)
  refine ⟨data, h1, ?_, (h2 1 (by decide)).land 0 0 (by unfold IsLand demoMask; norm_num)⟩
  rw [(h2 1 (by decide)).mass]
  norm_num [loadAt, demoLoad]

example : run Units.Earth.default 1e-15 (1 / 10 ^ 280) .ascii demoOpts demoMask demoLoad = some .broken :=
  (series_fails _ _ _ demoOpts demoMask demoLoad (fun _ => ⟨rfl, rfl⟩) (by decide) demo_wellPosed (by decide)).1

example : ∃ rows, run Units.Earth.default 1e-15 (1 / 10 ^ 280) .ascii demoOpts demoMask
    { demoLoad with nt := none, time := [2004], month := [24] } = some (.text rows) := by
  obtain ⟨rows, h, -⟩ := text_mass Units.Earth.default 1e-15 (1 / 10 ^ 280) demoOpts demoMask
    { demoLoad with nt := none, time := [2004], month := [24] } (fun _ => ⟨rfl, rfl⟩) rfl demo_wellPosed (by decide)
  exact ⟨rows, h⟩

end Verif.Fingerprint
