import Verif.RegMaps.Break
import Verif.Maps.Props

/-!
# C94: when the maps of two trends succeed; cases that meet the hypotheses
-/
namespace Verif.RegMaps
open Verif.TimeSeries Finset

/-- no two bent lines with waves agree at all dates -/
def BentIndependent (xs : List InMap) (tb : ℝ) (ws : List Wave) : Prop :=
  ∀ v : ℕ → ℝ, (∀ x ∈ xs, bent tb ws v x.time = 0) → ∀ k < 3 + 2 * ws.length, v k = 0

theorem fns_fullRank (l : List (ℕ × InMap)) (xs : List InMap) (hl : List.Perm (l.map (·.2)) xs) (fs : List (ℝ → ℝ))
    (cols : List (Fin l.length → ℝ)) (hc : cols = fs.map fun f i => f (l.get i).2.time) :
    FullRank (design cols) ↔
      ∀ v : ℕ → ℝ, (∀ x ∈ xs, ∑ k ∈ range fs.length, v k * (fs.getD k 0) x.time = 0) → ∀ k < fs.length, v k = 0 := by
  have hlen : cols.length = fs.length := by rw [hc, List.length_map]
  have hsum := fun u i => design_sum fs (fun i => (l.get i).2.time) cols hc u i
  have hmem : ∀ x ∈ xs, ∃ i : Fin l.length, (l.get i).2 = x := by
    intro x hx
    obtain ⟨m, hm, rfl⟩ := List.mem_map.1 (hl.mem_iff.2 hx)
    obtain ⟨i, hi⟩ := List.mem_iff_get.1 hm
    exact ⟨i, by rw [hi]⟩
  constructor
  · intro hX v hv k hk
    have := hX (fun j => v j.1) fun i => by
      rw [hsum]
      exact hv _ (hl.mem_iff.1 (List.mem_map_of_mem (List.get_mem l i)))
    exact congrFun this ⟨k, hlen ▸ hk⟩
  · intro hI v hv
    have hat : ∀ j : Fin cols.length, at' v j.1 = v j := by
      intro j; unfold at'; rw [dif_pos j.2]
    have h0 := hI (at' v) fun x hx => by
      obtain ⟨i, hi⟩ := hmem x hx
      rw [← hi, ← hsum]
      simp only [hat]
      exact hv i
    funext j
    rw [← hat j]
    exact h0 j.1 (hlen ▸ j.2)

theorem bentIndependent_iff (xs : List InMap) (tb : ℝ) (ws : List Wave) :
    BentIndependent xs tb ws ↔ ∀ v : ℕ → ℝ, (∀ x ∈ xs, ∑ k ∈ range (bentFns tb ws).length,
      v k * ((bentFns tb ws).getD k 0) x.time = 0) → ∀ k < (bentFns tb ws).length, v k = 0 := by
  rw [bentFns_length]
  constructor
  · intro h v hv k hk
    set u : ℕ → ℝ := fun k => if k = 2 then v 2 + v 1 else v k with hu
    have hr : raw u = v := by
      funext k
      unfold raw
      by_cases h2 : k = 2
      · subst h2; simp [hu]
      · rw [if_neg h2, hu]; simp [h2]
    have := h u fun x hx => by
      have e := congrFun (bent_sum tb ws u) x.time
      rw [hr, bentFns_length] at e
      rw [← e]; exact hv x hx
    have h1 := this 1 (by omega)
    have h2 := this 2 (by omega)
    have hk' := this k hk
    simp only [hu] at h1 h2 hk'
    norm_num at h1 h2
    by_cases hk2 : k = 2
    · subst hk2; linarith
    · rw [if_neg hk2] at hk'; exact hk'
  · intro h v hv k hk
    have := h (raw v) fun x hx => by
      have e := congrFun (bent_sum tb ws v) x.time
      rw [bentFns_length] at e
      exact e.trans (hv x hx)
    have h1 := this 1 (by omega)
    have h2 := this 2 (by omega)
    have hk' := this k hk
    unfold raw at h1 h2 hk'
    norm_num at h1 h2
    by_cases hk2 : k = 2
    · subst hk2; linarith
    · rw [if_neg hk2] at hk'; exact hk'

/-- one cell can be fitted with a break when there are two maps and the functions are independent -/
theorem breakCell_some (lib : Lib) (cycles : List ℚ) (xs : List InMap) (l : List (ℕ × InMap)) (nlat nlon : ℕ)
    (hl : List.Perm (l.map (·.2)) xs) (hs : l.Pairwise fun a b => a.2.time ≤ b.2.time) (i : ℕ) (hi : i < l.length) (a b : ℕ) :
    (breakCell lib (gridFrom nlat nlon l) i cycles (plan breakPlan cycles) a b).isSome ↔
      xs.length ≠ 1 ∧ BentIndependent xs (l[i]).2.time (fitted cycles) := by
  have hxl : xs.length = l.length := by rw [← hl.length_eq, List.length_map]
  unfold breakCell TimeSeries.piecewise
  by_cases h1 : (gridFrom nlat nlon l).n = 1
  · rw [if_pos h1]
    have : xs.length = 1 := by rw [hxl]; exact h1
    simp [this]
  · rw [if_neg h1]
    have h1' : xs.length ≠ 1 := by rw [hxl]; exact h1
    have hb : breakOf (gridFrom nlat nlon l).time none (some i) = some (i, (l[i]).2.time) := by
      unfold breakOf
      simp only
      rw [dif_pos (show i < (gridFrom nlat nlon l).n from hi)]
      rfl
    rw [hb]
    simp only [Option.isSome_map]
    rw [bentIndependent_iff, ← fns_fullRank l xs hl _ _ (break_cols l hs i hi cycles)]
    have hn := (regressFit_none lib.erf lib.tppf lib.eps (design (piecewiseCols (gridFrom nlat nlon l).time i (l[i]).2.time
      ((remaining (plan breakPlan cycles) cycles).map fun c : ℚ => (c : ℝ))
      (termsOf (gridFrom nlat nlon l).time (plan breakPlan cycles)))) ((gridFrom nlat nlon l).data a b) 3 fitOpts).2.2 0
    have hp := (piecewiseFit_core lib.erf lib.tppf lib.eps (design (piecewiseCols (gridFrom nlat nlon l).time i (l[i]).2.time
      ((remaining (plan breakPlan cycles) cycles).map fun c : ℚ => (c : ℝ))
      (termsOf (gridFrom nlat nlon l).time (plan breakPlan cycles)))) ((gridFrom nlat nlon l).data a b) false (.scalar 0)
      fitOpts).1
    rw [← hp, ← Option.not_isSome_iff_eq_none] at hn
    constructor
    · intro h; exact ⟨h1', by_contra fun hX => (hn.2 hX) h⟩
    · intro h; by_contra hX; exact (hn.1 hX) h.2

/-- C94: the program with a break succeeds exactly when: the format is not text, the map of every month is on the disk, all
maps are on one grid, the month of the break is one of the months, and (for grids with cells) there are at least two months and
no bent line with waves vanishes at all dates -/
theorem break_succeeds (lib : Lib) (disk : List Char → Option InMap) (j : Job) (B : ℕ) (cycles : List ℚ) :
    (∃ files, piecewiseMaps lib disk j B (some cycles) = .ok files) ↔
      ∃ suffix xs nlat nlon xb, ((j.DATAFORM = "netCDF4".toList ∧ suffix = "nc".toList) ∨
          (j.DATAFORM = "HDF5".toList ∧ suffix = "H5".toList)) ∧
        Stored disk j suffix xs ∧ (∀ x ∈ xs, x.nlat = nlat ∧ x.nlon = nlon) ∧ B ∈ months j ∧
        disk (inName j suffix B) = some xb ∧
        (0 < nlat → 0 < nlon → 2 ≤ xs.length ∧ BentIndependent xs xb.time (fitted cycles)) := by
  have hne : "ascii".toList ≠ "netCDF4".toList ∧ "ascii".toList ≠ "HDF5".toList ∧ "HDF5".toList ≠ "netCDF4".toList := by decide
  have key := breakCell_some lib cycles
  constructor
  · rintro ⟨files, h⟩
    obtain ⟨suffix, g, cell, hi, hB, hc, -⟩ := break_ok lib disk j B cycles files h
    obtain ⟨hs, hasc, xs, l, nlat, nlon, hst, hxs, rfl, hz, hl, hm, hsort, hsame⟩ := input_ok disk j suffix g hi
    obtain ⟨hiff, hpos⟩ := break_month disk j suffix B xs l nlat nlon hst hz hm
    obtain ⟨i, hilt, xb, hidx, hli, -, hdisk⟩ := hpos hB
    refine ⟨suffix, xs, nlat, nlon, xb, ?_, hst, hsame, hiff.1 hB, hdisk, fun h1 h2 => ?_⟩
    · unfold suffixOf at hs
      split_ifs at hs with a1 a2 a3
      · exact absurd a1 hasc
      · cases hs; exact .inl ⟨a2, rfl⟩
      · cases hs; exact .inr ⟨a3, rfl⟩
    · obtain ⟨x, hx, -⟩ := cells_ok _ _ cell hc 0 0 h1 h2
      rw [hidx] at hx
      have := (key xs l nlat nlon hl hsort i hilt 0 0).1 (by rw [hx]; rfl)
      rw [hli] at this
      have h0 : xs.length ≠ 0 := fun h => hxs (List.length_eq_zero_iff.1 h)
      exact ⟨by omega, this.2⟩
  · rintro ⟨suffix, xs, nlat, nlon, xb, hform, hst, hsame, hBm, hxb, hind⟩
    have hsuf : suffixOf j.DATAFORM = .ok suffix ∧ j.DATAFORM ≠ "ascii".toList := by
      rcases hform with ⟨e, rfl⟩ | ⟨e, rfl⟩
      · rw [e]; unfold suffixOf; rw [if_neg hne.1.symm, if_pos rfl]; exact ⟨rfl, hne.1.symm⟩
      · rw [e]; unfold suffixOf; rw [if_neg hne.2.1.symm, if_neg hne.2.2, if_pos rfl]; exact ⟨rfl, hne.2.1.symm⟩
    have hxs : xs ≠ [] := by
      rintro rfl
      unfold Stored at hst
      rw [List.map_nil, List.map_eq_nil_iff] at hst
      rw [hst] at hBm; simp at hBm
    obtain ⟨g, hi, g1, g2⟩ := input_stored disk j suffix xs nlat nlon hsuf.1 hsuf.2 hst hxs hsame
    obtain ⟨-, -, xs', l, nlat', nlon', hst', -, rfl, hz, hl, hm, hsort, -⟩ := input_ok disk j suffix g hi
    have hxx : xs' = xs := by
      unfold Stored at hst hst'
      have := hst'.symm.trans hst
      exact List.map_injective_iff.2 (Option.some_injective _) this
    subst hxx
    have g1 : nlat' = nlat := g1
    have g2 : nlon' = nlon := g2
    subst g1 g2
    obtain ⟨hiff, hpos⟩ := break_month disk j suffix B xs' l nlat' nlon' hst hz hm
    obtain ⟨i, hilt, xb', hidx, hli, -, hdisk⟩ := hpos (hiff.2 hBm)
    have : xb' = xb := by rw [hdisk] at hxb; cases hxb; rfl
    subst this
    unfold piecewiseMaps
    rw [hi]
    simp only
    rw [if_neg (not_not.2 (hiff.2 hBm)), hidx]
    have hall : ∀ a < (gridFrom nlat' nlon' l).nlat, ∀ b < (gridFrom nlat' nlon' l).nlon,
        (breakCell lib (gridFrom nlat' nlon' l) i cycles (plan breakPlan cycles) a b).isSome := by
      intro a ha b hb
      obtain ⟨i1, i2⟩ := hind (Nat.zero_lt_of_lt ha) (Nat.zero_lt_of_lt hb)
      refine (key xs' l nlat' nlon' hl hsort i hilt a b).2 ⟨by omega, ?_⟩
      rw [hli]; exact i2
    unfold cells
    rw [if_pos hall]
    exact ⟨_, rfl⟩

/-! ## A disk with nine months -/

/-- months 1 to 9, one cell; before and after 2018 -/
noncomputable def exTimes : List ℝ := [0, 161, 644 / 3, 322, 1288 / 3, 644, 2576, 2737, 2898]

/-- the map of a date -/
noncomputable def exMap (t : ℝ) : InMap := ⟨1, 1, fun _ _ => t ^ 2, t⟩

/-- the job -/
def exJob : Job := ⟨['G', '_'], ['c'], ['c'], [], 60, 60, false, 1, 9, [], "netCDF4".toList⟩

open scoped Classical in
/-- the disk -/
noncomputable def exDisk : List Char → Option InMap := fun name =>
  if h : ∃ m : ℕ, name = inName exJob "nc".toList m then some (exMap (exTimes.getD (h.choose - 1) 0)) else none

theorem exDisk_at (m : ℕ) : exDisk (inName exJob "nc".toList m) = some (exMap (exTimes.getD (m - 1) 0)) := by
  have hex : ∃ k : ℕ, inName exJob "nc".toList m = inName exJob "nc".toList k := ⟨m, rfl⟩
  unfold exDisk
  rw [dif_pos hex]
  have hc := hex.choose_spec
  have : hex.choose = m := by
    generalize hex.choose = k at hc
    unfold inName at hc
    simp only [List.append_assoc, List.cons_append] at hc
    have h2 := List.append_cancel_left hc
    rw [List.cons.injEq] at h2
    exact (Maps.num_inj 3 m k (List.append_cancel_right h2.2)).symm
  rw [this]

theorem exStored : Stored exDisk exJob "nc".toList (exTimes.map exMap) := by
  have hm : months exJob = [1, 2, 3, 4, 5, 6, 7, 8, 9] := by decide
  unfold Stored
  rw [hm]
  simp only [List.map_cons, List.map_nil, exDisk_at]
  rfl

theorem wave_at (N : ℤ) (p q : ℝ) (h : q = 2 * Real.pi * p + N * (2 * Real.pi)) :
    Real.sin q = Real.sin (2 * Real.pi * p) ∧ Real.cos q = Real.cos (2 * Real.pi * p) := by
  rw [h, Real.sin_add_int_mul_two_pi, Real.cos_add_int_mul_two_pi]
  exact ⟨rfl, rfl⟩

theorem exFitted : comps 1 (fitted [161 / 365.25, 1]) = [.power 0, .power 1, .sine (.cycle 1), .cosine (.cycle 1),
      .sine (.alias .S2 false), .cosine (.alias .S2 false), .sine (.alias .S2 true), .cosine (.alias .S2 true)] ∧
    comps 1 (fitted [1, 161 / 365.25]) = comps 1 (fitted [161 / 365.25, 1]) := by
  constructor <;> decide +kernel

/-- values of a wave at parts of its period -/
theorem part_values : (Real.sin (2 * Real.pi * 0) = 0 ∧ Real.cos (2 * Real.pi * 0) = 1) ∧
    (Real.sin (2 * Real.pi * (1 / 4)) = 1 ∧ Real.cos (2 * Real.pi * (1 / 4)) = 0) ∧
    (Real.sin (2 * Real.pi * (1 / 2)) = 0 ∧ Real.cos (2 * Real.pi * (1 / 2)) = -1) ∧
    (Real.sin (2 * Real.pi * (1 / 3)) = Real.sqrt 3 / 2 ∧ Real.cos (2 * Real.pi * (1 / 3)) = -(1 / 2)) ∧
    (Real.sin (2 * Real.pi * (2 / 3)) = -(Real.sqrt 3 / 2) ∧ Real.cos (2 * Real.pi * (2 / 3)) = -(1 / 2)) := by
  have e1 : 2 * Real.pi * (1 / 4) = Real.pi / 2 := by ring
  have e2 : 2 * Real.pi * (1 / 2) = Real.pi := by ring
  have e3 : 2 * Real.pi * (1 / 3) = Real.pi - Real.pi / 3 := by ring
  have e4 : 2 * Real.pi * (2 / 3) = Real.pi / 3 + Real.pi := by ring
  refine ⟨by simp, ?_, ?_, ?_, ?_⟩
  · rw [e1]; simp
  · rw [e2]; simp
  · rw [e3, Real.sin_pi_sub, Real.cos_pi_sub, Real.sin_pi_div_three, Real.cos_pi_div_three]; exact ⟨rfl, rfl⟩
  · rw [e4, Real.sin_add_pi, Real.cos_add_pi, Real.sin_pi_div_three, Real.cos_pi_div_three]; exact ⟨rfl, rfl⟩

theorem exIndependent : Independent (exTimes.map exMap) (comps 1 (fitted [161 / 365.25, 1])) := by
  rw [exFitted.1]
  intro v hv
  generalize meanDate (exTimes.map exMap) = m at hv
  obtain ⟨⟨s0, c0⟩, ⟨s4, c4⟩, ⟨s2, c2⟩, ⟨s3, c3⟩, ⟨s6, c6⟩⟩ := part_values
  have hval : ∀ (t p q : ℝ) (N M : ℤ), 2 * Real.pi * t = 2 * Real.pi * p + N * (2 * Real.pi) →
      2 * Real.pi * t / (161 / 365.25) = 2 * Real.pi * q + M * (2 * Real.pi) → t ∈ exTimes →
      v 0 + v 1 * (t - m) + v 2 * Real.sin (2 * Real.pi * p) + v 3 * Real.cos (2 * Real.pi * p) +
        (if t < 2018 then v 4 * Real.sin (2 * Real.pi * q) + v 5 * Real.cos (2 * Real.pi * q)
          else v 6 * Real.sin (2 * Real.pi * q) + v 7 * Real.cos (2 * Real.pi * q)) = 0 := by
    intro t p q N M h1 h2 ht
    have h := hv (exMap t) (List.mem_map_of_mem ht)
    have ht' : (exMap t).time = t := rfl
    rw [ht'] at h
    unfold curve at h
    simp only [List.length_cons, List.length_nil, Finset.sum_range_succ, Finset.sum_range_zero] at h
    obtain ⟨a1, a2⟩ := wave_at N p _ h1
    obtain ⟨b1, b2⟩ := wave_at M q _ h2
    have hper : ((Tide.S2.days : ℚ) : ℝ) = 161 := by simp [Tide.days]
    simp only [List.getD_cons_zero, List.getD_cons_succ, Comp.value, Wave.during, Wave.period, hper, Rat.cast_one, div_one,
      if_true, a1, a2, b1, b2] at h
    by_cases hlt : t < 2018
    · have hge : ¬ 2018 ≤ t := not_le.2 hlt
      simp only [if_pos hlt, if_neg hge] at h ⊢
      linarith
    · have hge : 2018 ≤ t := not_lt.1 hlt
      simp only [if_neg hlt, if_pos hge] at h ⊢
      linarith
  have f1 := hval 0 0 0 0 0 (by simp) (by simp) (by simp [exTimes])
  have f2 := hval 161 0 (1 / 4) 161 365 (by push_cast; ring) (by push_cast; field_simp; norm_num) (by simp [exTimes])
  have f3 := hval 322 0 (1 / 2) 322 730 (by push_cast; ring) (by push_cast; field_simp; norm_num) (by simp [exTimes])
  have f4 := hval 644 0 0 644 1461 (by push_cast; ring) (by push_cast; field_simp; norm_num) (by simp [exTimes])
  have f5 := hval (644 / 3) (2 / 3) 0 214 487 (by push_cast; ring) (by push_cast; field_simp; norm_num) (by simp [exTimes])
  have f6 := hval (1288 / 3) (1 / 3) 0 429 974 (by push_cast; ring) (by push_cast; field_simp; norm_num) (by simp [exTimes])
  have f7 := hval 2576 0 0 2576 5844 (by push_cast; ring) (by push_cast; field_simp; norm_num) (by simp [exTimes])
  have f8 := hval 2737 0 (1 / 4) 2737 6209 (by push_cast; ring) (by push_cast; field_simp; norm_num) (by simp [exTimes])
  norm_num [s0, c0, s4, c4, s2, c2] at f1 f2 f3 f4 f7 f8
  rw [s6, c6, s0, c0, if_pos (by norm_num)] at f5
  rw [s3, c3, s0, c0, if_pos (by norm_num)] at f6
  have hs3 : Real.sqrt 3 ≠ 0 := by positivity
  have h1 : v 1 = 0 := by linarith
  rw [h1] at f1 f2 f3 f4 f5 f6 f7 f8
  have h5 : v 5 = 0 := by linarith
  have h4 : v 4 = 0 := by linarith
  have h3 : v 3 = 0 := by linarith
  have h0 : v 0 = 0 := by linarith
  have h2 : v 2 = 0 := by
    have : v 2 * Real.sqrt 3 = 0 := by linarith
    rcases mul_eq_zero.1 this with h | h
    · exact h
    · exact absurd h hs3
  have h7 : v 7 = 0 := by linarith
  have h6 : v 6 = 0 := by linarith
  intro k hk
  simp only [List.length_cons, List.length_nil] at hk
  rcases (by omega : k = 0 ∨ k = 1 ∨ k = 2 ∨ k = 3 ∨ k = 4 ∨ k = 5 ∨ k = 6 ∨ k = 7) with
    rfl | rfl | rfl | rfl | rfl | rfl | rfl | rfl <;> assumption

theorem exGrid : ∀ x ∈ exTimes.map exMap, x.nlat = 1 ∧ x.nlon = 1 := by
  intro x hx
  obtain ⟨t, -, rfl⟩ := List.mem_map.1 hx
  exact ⟨rfl, rfl⟩

/-- nine maps, a trend, a year and a tide in both orders: the hypotheses of `regress_right` and of `regress_mislabelled`, and
more maps than coefficients for `regress_measures` -/
example (lib : Lib) : (∃ files, regressMaps lib exDisk exJob 1 (some ([1] ++ [161 / 365.25])) = .ok files) ∧
    (∀ c ∈ [(1 : ℚ)], Season c) ∧ (∀ c ∈ [(161 / 365.25 : ℚ)], Tidal c) ∧
    (∃ files, regressMaps lib exDisk exJob 1 (some [161 / 365.25, 1]) = .ok files) ∧
    (comps 1 (fitted [1, 161 / 365.25])).length < (exTimes.map exMap).length ∧ (labelled [1, 161 / 365.25]).Nodup := by
  refine ⟨?_, ?_, ?_, ?_, ?_, ?_⟩
  · refine (regress_succeeds lib exDisk exJob 1 _).2 ⟨"nc".toList, exTimes.map exMap, 1, 1, .inl ⟨rfl, rfl⟩, exStored,
      by simp [exTimes], exGrid, by norm_num, fun _ _ => ⟨by simp [exTimes], ?_⟩⟩
    rw [List.singleton_append, exFitted.2]
    exact exIndependent
  · simp [Season]
  · intro c hc
    rw [List.mem_singleton] at hc
    subst hc
    unfold Tidal
    decide +kernel
  · exact (regress_succeeds lib exDisk exJob 1 _).2 ⟨"nc".toList, exTimes.map exMap, 1, 1, .inl ⟨rfl, rfl⟩, exStored,
      by simp [exTimes], exGrid, by norm_num, fun _ _ => ⟨by simp [exTimes], exIndependent⟩⟩
  · rw [exFitted.2, exFitted.1]; simp [exTimes]
  · decide +kernel

/-- nine maps, a break at the fourth and no cycles: the hypotheses of `break_right` and `break_errors` -/
example (lib : Lib) : (∃ files, piecewiseMaps lib exDisk exJob 4 (some ([] ++ [])) = .ok files) ∧
    3 + 2 * (labelled ([] ++ [])).length < (exTimes.map exMap).length := by
  refine ⟨?_, by simp [exTimes, labelled]⟩
  refine (break_succeeds lib exDisk exJob 4 _).2 ⟨"nc".toList, exTimes.map exMap, 1, 1, exMap 322, .inl ⟨rfl, rfl⟩, exStored,
    exGrid, by decide, exDisk_at 4, fun _ _ => ⟨by simp [exTimes], ?_⟩⟩
  intro v hv k hk
  have hval : ∀ t ∈ exTimes, (if t ≤ 322 then v 0 + v 1 * t else v 0 + v 1 * 322 + v 2 * (t - 322)) = 0 := by
    intro t ht
    have h := hv (exMap t) (List.mem_map_of_mem ht)
    unfold bent at h
    by_cases hle : t ≤ 322
    · rw [if_pos (show (exMap t).time ≤ (exMap 322).time from hle)] at h
      rw [if_pos hle]
      simpa [fitted, exMap] using h
    · rw [if_neg (show ¬ (exMap t).time ≤ (exMap 322).time from hle)] at h
      rw [if_neg hle]
      simpa [fitted, exMap] using h
  have f1 := hval 0 (by simp [exTimes])
  have f2 := hval 161 (by simp [exTimes])
  have f3 := hval 644 (by simp [exTimes])
  norm_num at f1 f2 f3
  have h2 : v 2 = 0 := by linarith
  have h1 : v 1 = 0 := by linarith
  simp only [List.append_nil, fitted, List.filter_nil, List.map_nil, List.flatMap_nil, List.length_nil] at hk
  rcases (by omega : k = 0 ∨ k = 1 ∨ k = 2) with rfl | rfl | rfl <;> assumption

end Verif.RegMaps
