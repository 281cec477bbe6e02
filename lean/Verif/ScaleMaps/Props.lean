import Verif.ScaleMaps.Cells
import Verif.Maps.Props
import Verif.SpatialError.Props3

/-!
# C95: scaled maps (`scale_grace_maps`)
-/
namespace Verif.ScaleMaps
open Verif.Harmonics Verif.Maps Verif.Spatial Verif.SpatialError

/-- a successful run in terms of the two other programs -/
theorem run_composed (eps scalef cutoff : ℝ) (erf : ℝ → ℝ) (tppf : ℝ → ℝ → ℝ) (fmt : ℝ → ℝ) (title reference : String)
    (nm : Names) (r : Run) (hL : 2 ≤ r.o.LMAX) (grace : Harm ℝ) (n : ℕ) (D : Data r.o grace n) (meanFile : Option (Harm ℝ))
    (hmf : ∀ f, meanFile = some f → f.nt = none) (gia : Harm ℝ) (dfactor : ℕ → ℝ) (scale : ScaleFile) (k : Factors)
    (hk : factorsOf scale = .ok k)
    (hs : k.data.rows = k.lat.length ∧ k.data.cols = k.lon.length ∧ sameShape k.data k.error ∧ sameShape k.data k.magnitude)
    (maps : List Maps.Map)
    (hm : spatialMaps eps scalef cutoff { r.o with LMIN := 0 } grace meanFile gia [] dfactor k.lon k.lat = .ok maps)
    (fs fs' : List Char → Option CacheFile) (g : List (List ℝ))
    (he : spatialError eps scalef cutoff erf tppf fmt title reference r grace meanFile dfactor k.lon k.lat fs = .ok (fs', g)) :
    scaleMaps eps scalef cutoff erf tppf fmt title reference nm r grace meanFile gia [] dfactor scale fs =
      .ok (fs', outputs nm r (grace.month.headD 0).toNat (grace.month.getLastD 0).toNat k maps g) := by
  obtain ⟨a, a1, a2, A⟩ := anomaly_holds r.o grace n D meanFile hmf
  obtain ⟨f, f1, f2, F⟩ := filtered_holds r.o (by omega) a n _ _ _ A
  unfold spatialMaps at hm
  unfold spatialError at he
  unfold scaleMaps
  cases hw : weights cutoff r.o.RAD r.o.LMAX with
  | none => rw [hw] at he; cases he
  | some wt =>
    rw [hw] at he
    have hw' : weights cutoff { r.o with LMIN := 0 }.RAD { r.o with LMIN := 0 }.LMAX = some wt := hw
    rw [hw'] at hm
    simp only at hm he ⊢
    rw [hk]
    simp only
    rw [a1] at hm he ⊢
    simp only [lift, SpatialError.lift] at hm he ⊢
    rw [f1] at he ⊢
    have f1' : filtered { r.o with LMIN := 0 } a = .ok f := f1
    rw [f1'] at hm
    simp only [removedSum] at hm he ⊢
    simp only [List.map_nil, removedSum, ne_eq, not_true_eq_false, if_false]
    cases h0 : f.month.head? with
    | none => rw [h0] at he; cases he
    | some m0 =>
      cases h1 : f.month.getLast? with
      | none => rw [h0, h1] at he; cases he
      | some m1 =>
        rw [h0, h1] at he
        simp only at he ⊢
        cases hd : deltaStep erf tppf fmt title reference r fs (deltaName r m0.toNat m1.toNat) f with
        | error e => rw [hd] at he; cases he
        | ok x =>
          obtain ⟨fs1, d, c⟩ := x
          rw [hd] at he
          simp only at he ⊢
          cases hg : errorGrid eps scalef r.o (factorList r.o.LMAX dfactor wt) d c k.lon k.lat with
          | error e => rw [hg] at he; cases he
          | ok g' =>
            rw [hg] at he
            simp only [Except.ok.injEq, Prod.mk.injEq] at he
            obtain ⟨rfl, rfl⟩ := he
            unfold finish
            rw [if_neg (not_not.2 hs)]
            have hm' : (List.range f.month.length).mapM (monthMap eps scalef { r.o with LMIN := 0 }
                (factorList r.o.LMAX dfactor wt) f (giaSeries gia f) (zerosLike f) k.lon k.lat) = .ok maps := hm
            rw [hm']
            simp only [lift]
            rw [hg]
            simp only
            rw [F.month] at h0 h1
            have e0 : m0 = grace.month.headD 0 := by rw [List.headD_eq_head?_getD, h0]; rfl
            have e1 : m1 = grace.month.getLastD 0 := by rw [List.getLastD_eq_getLast?, h1]; rfl
            rw [e0, e1]

theorem cellAt_of (d : List (List ℝ)) (i j : ℕ) (row : List ℝ) (v : ℝ) (h1 : d[i]? = some row) (h2 : row[j]? = some v) :
    cellAt d i j = v := by
  simp [cellAt, List.getD_eq_getElem?_getD, h1, h2]

theorem atDate_at3 (i j s t : ℕ) : atDate (at3 i j s) t = at3 i j t := by
  funext q
  unfold atDate at3
  fin_cases q <;> simp [Function.update]

/-- cells of the three maps -/
theorem outputs_cells (nm : Names) (r : Run) (first last : ℕ) (f : FactorFile) (hf : Regular f) (k : Factors)
    (hk : readFactors f = .ok k) (maps : List Maps.Map) (g : List (List ℝ)) :
    ∃ A E D, outputs nm r first last k maps g = [A, E, D] ∧
      A.name = outName nm [] r first last ∧ E.name = outName nm "ERROR_".toList r first last ∧
      D.name = outName nm "DELTA_".toList r first last ∧
      (A.map.lon = f.lon ∧ A.map.lat = f.lat) ∧ A.map.time = (maps.map fun m => m.time.headD 0) ∧
      A.map.month = (maps.map fun m => m.month.headD 0) ∧
      ∀ i j, (Invalid f i j → (∀ t, A.map.data (at3 i j t) = invalid) ∧ E.map.data (at3 i j 0) = invalid ∧
          D.map.data (at3 i j 0) = invalid) ∧
        ∀ x, Valid f i j x → ∀ v : ℕ → ℝ, (∀ t < maps.length, cellAt ((maps[t]?.map (·.data)).getD []) i j = v t) →
          (∀ t < maps.length, A.map.data (at3 i j t) = some (x * v t)) ∧
          D.map.data (at3 i j 0) = some (x * cellAt g i j) ∧
          (∀ e p, f.error.val i j = some e → f.power.val i j = some p → p ≠ 0 →
            E.map.data (at3 i j 0) = some (e * (Real.sqrt (∑ t ∈ Finset.range maps.length, (x * v t) ^ 2) / p))) ∧
          ∀ e, f.error.val i j = some e → f.power.val i j = some 0 →
            E.map.data (at3 i j 0) = some (if ∃ t < maps.length, x * v t ≠ 0 then 0 else -9999 * e) := by
  obtain ⟨k', hk', e1, e2, e3, e4, e5⟩ := readFactors_regular f hf
  rw [hk] at hk'
  cases hk'
  refine ⟨_, _, _, rfl, rfl, rfl, rfl, ⟨e1, e2⟩, rfl, rfl, fun i j => ⟨fun hi => ?_, fun x hx v hv => ?_⟩⟩
  · have hmask := e5 i j hi
    refine ⟨fun t => (scaled_invalid k _ rfl (at3 i j t) hmask).1, leakage_invalid k (scaled k (gridOf k maps)) rfl (at3 i j 0) hmask,
      (scaled_invalid k _ rfl (at3 i j 0) hmask).1⟩
  · obtain ⟨m, d, er, mg⟩ := e4 i j x hx
    have hA : ∀ t < maps.length, (scaled k (gridOf k maps)).data (at3 i j t) = some (x * v t) ∧
        (scaled k (gridOf k maps)).mask (at3 i j t) = false := fun t ht =>
      scaled_valid k (gridOf k maps) rfl rfl (at3 i j t) x (v t) m d (congrArg some (hv t ht))
    have hshape : (scaled k (gridOf k maps)).shape 2 = maps.length := rfl
    have hall : ∀ t < (scaled k (gridOf k maps)).shape 2, (scaled k (gridOf k maps)).data (atDate (at3 i j 0) t) = some (x * v t) ∧
        (scaled k (gridOf k maps)).mask (atDate (at3 i j 0) t) = false := by
      intro t ht
      rw [atDate_at3]
      exact hA t ht
    refine ⟨fun t ht => (hA t ht).1, (scaled_valid k (deltaOf k g) rfl rfl (at3 i j 0) x _ m d rfl).1, ?_, ?_⟩
    · intro e p he hp hp0
      exact leakage_valid k _ rfl (at3 i j 0) (fun t => x * v t) hall e p m (er.trans he) (mg.trans hp) hp0
    · intro e he hp
      exact leakage_zero k _ rfl (at3 i j 0) (fun t => x * v t) hall e m (er.trans he) (mg.trans hp)

/-- C95: scaled maps.  From a regular file of factors the program makes three files: the maps of the months, of the leakage
errors and of the propagated errors of the coefficients.  At a cell with factor `x` the map of a month is `x` times the anomaly
in all degrees; the leakage error is the error of the factor times the ratio of the root of the sum of squares of the scaled
maps and the magnitude in the file; the error is `x` times the error map of `grace_spatial_error`.  Cells without a valid factor
hold -9999 in all three.  The files of coefficient errors are afterwards as after a run of `grace_spatial_error`. -/
theorem scale_value (eps scalef cutoff : ℝ) (hsc : scalef ≠ 0) (erf : ℝ → ℝ) (tppf : ℝ → ℝ → ℝ) (fmt : ℝ → ℝ)
    (title reference : String) (nm : Names) (r : Run) (hL : 2 ≤ r.o.LMAX) (hM : r.o.order ≤ r.o.LMAX) (grace : Harm ℝ) (n : ℕ)
    (D : Data r.o grace n) (meanFile : Option (Harm ℝ)) (hmf : ∀ f, meanFile = some f → f.nt = none) (gia : Harm ℝ)
    (ho : r.o.ocean = none) (dfactor wt : ℕ → ℝ) (hw : weights cutoff r.o.RAD r.o.LMAX = some wt)
    (f : FactorFile) (hf : Regular f) (fs fs' : List Char → Option CacheFile) (g : List (List ℝ))
    (he : spatialError eps scalef cutoff erf tppf fmt title reference r grace meanFile dfactor f.lon f.lat fs = .ok (fs', g)) :
    ∃ A E D, scaleMaps eps scalef cutoff erf tppf fmt title reference nm r grace meanFile gia [] dfactor (.data f) fs =
        .ok (fs', [A, E, D]) ∧
      (A.map.lon = f.lon ∧ A.map.lat = f.lat ∧ A.map.time = grace.time ∧ A.map.month = grace.month) ∧
      ∀ (i : ℕ) (lat : ℚ), f.lat[i]? = some lat → ∀ (j : ℕ) (lon : ℚ), f.lon[j]? = some lon →
        (Invalid f i j → (∀ t, A.map.data (at3 i j t) = invalid) ∧ E.map.data (at3 i j 0) = invalid ∧
          D.map.data (at3 i j 0) = invalid) ∧
        ∀ x, Valid f i j x → ∃ v : ℕ → ℝ,
          (∀ t, v t = anomalyAt eps r.o (fun l => dfactor l * wt l) grace n meanFile gia t lon lat) ∧
          (∀ t < n, A.map.data (at3 i j t) = some (x * v t)) ∧
          D.map.data (at3 i j 0) = some (x * (g.getD i []).getD j 0) ∧
          ∀ e p, f.error.val i j = some e → f.power.val i j = some p → p ≠ 0 →
            E.map.data (at3 i j 0) = some (e * (Real.sqrt (∑ t ∈ Finset.range n, (x * v t) ^ 2) / p)) := by
  obtain ⟨k, hk, e1, e2, e3, e4, e5⟩ := readFactors_regular f hf
  have D0 : Data { r.o with LMIN := 0 } grace n := ⟨D.lmax, D.mmax, D.nt, D.wf, D.months⟩
  obtain ⟨maps, hm, hlen, hmaps⟩ := spatialMaps_value eps scalef cutoff hsc { r.o with LMIN := 0 } hL hM grace n D0 meanFile hmf
    gia [] (by simp) (by intro oc h; rw [show ({ r.o with LMIN := 0 } : Maps.Opts).ocean = r.o.ocean from rfl, ho] at h; cases h)
    dfactor wt hw f.lon f.lat
  have hrun := run_composed eps scalef cutoff erf tppf fmt title reference nm r hL grace n D meanFile hmf gia dfactor (.data f) k
    hk (by rw [e1, e2]; exact e3) maps (by rw [e1, e2]; exact hm) fs fs' g (by rw [e1, e2]; exact he)
  obtain ⟨A, E, D', ho', -, -, -, ⟨a1, a2⟩, a3, a4, hc⟩ := outputs_cells nm r (grace.month.headD 0).toNat
    (grace.month.getLastD 0).toNat f hf k hk maps g
  have ht : grace.time.length = n := by rw [D.wf.1, D.nt]; rfl
  have hmo : grace.month.length = n := by rw [D.wf.2, D.nt]; rfl
  refine ⟨A, E, D', by rw [hrun, ho'], ⟨a1, a2, ?_, ?_⟩, ?_⟩
  · rw [a3]
    apply List.ext_getElem (by simp [hlen, ht])
    intro t h1 h2
    obtain ⟨M, q1, q2, q3, -⟩ := hmaps t (by omega)
    have h3 : t < maps.length := by simpa using h1
    rw [List.getElem?_eq_getElem h3, Option.some.injEq] at q1
    simp [q1, q2, h2]
  · rw [a4]
    apply List.ext_getElem (by simp [hlen, hmo])
    intro t h1 h2
    obtain ⟨M, q1, q2, q3, -⟩ := hmaps t (by omega)
    have h3 : t < maps.length := by simpa using h1
    rw [List.getElem?_eq_getElem h3, Option.some.injEq] at q1
    simp [q1, q3, h2]
  · intro i lat hi j lon hj
    obtain ⟨c1, c2⟩ := hc i j
    refine ⟨c1, fun x hx => ⟨fun t => anomalyAt eps r.o (fun l => dfactor l * wt l) grace n meanFile gia t lon lat, fun _ => rfl, ?_⟩⟩
    have hcell : ∀ t < maps.length, cellAt ((maps[t]?.map (·.data)).getD []) i j =
        anomalyAt eps r.o (fun l => dfactor l * wt l) grace n meanFile gia t lon lat := by
      intro t ht
      obtain ⟨M, q1, -, -, -, q5⟩ := hmaps t (by omega)
      obtain ⟨row, w1, -, w3⟩ := q5 i lat hi
      rw [q1]
      exact cellAt_of _ i j row _ w1 (w3 j lon hj)
    obtain ⟨b1, b2, b3, -⟩ := c2 x hx _ hcell
    rw [hlen] at b1 b3
    exact ⟨b1, b2, b3⟩

end Verif.ScaleMaps
