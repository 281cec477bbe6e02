import Verif.SpatialError.Lemmas

/-!
# C92: maps of the errors of the data (`grace_spatial_error`)
-/
namespace Verif.SpatialError
open Verif.Harmonics Verif.Legendre Verif.Maps Verif.TimeSeries Verif.Synthesis

/-- name of the file with the errors of the coefficients of a run over the given data -/
def cacheName (r : Run) (grace : Harm ℝ) : List Char :=
  deltaName r (grace.month.headD 0).toNat (grace.month.getLastD 0).toNat

/-- what a file holds when it is read: errors of the coefficients and the number of points -/
structure Content (f : CacheFile) (L M : ℕ) (C S : ℕ → ℕ → ℝ) (k : ℤ) : Prop where
  read : ∃ h, cacheRead f = .ok h ∧ h.lmax = L ∧ h.mmax = M ∧ h.nt = none ∧ h.WF ∧ h.month = [k] ∧
    ∀ l m, m ≤ l → l ≤ L → m ≤ M → h.clm l m 0 = C l m ∧ h.slm l m 0 = S l m

theorem cacheWrite_data (fmt : ℝ → ℝ) (title reference : String) (F : Fmt) (hF : F ≠ .ascii) (d : Harm ℝ) (hm : d.mmax ≤ d.lmax)
    (hn : d.nt = none) (k : ℤ) (hk : d.month = [k]) (x : ℚ) (hx : d.time = [x]) :
    ∃ f, cacheWrite fmt title reference F d = .ok f ∧
      Content f d.lmax d.mmax (fun l m => d.clm l m 0) (fun l m => d.slm l m 0) k := by
  have hwf : d.WF := ⟨by rw [hx, hn]; rfl, by rw [hk, hn]; rfl⟩
  have key : ∀ hdf5 : Bool, ∃ f h, HarmIO.Data.dataWriter hdf5 { title := some title, reference := some reference } d none = .ok f ∧
      HarmIO.Data.dataReader f = .ok h ∧ h.lmax = d.lmax ∧ h.mmax = d.mmax ∧ h.nt = none ∧ h.WF ∧ h.month = [k] ∧
      ∀ l m, m ≤ l → l ≤ d.lmax → m ≤ d.mmax → h.clm l m 0 = d.clm l m 0 ∧ h.slm l m 0 = d.slm l m 0 := by
    intro hdf5
    obtain ⟨o', file, out, k1, -, k2, k3, k4, -, k6, -, k8⟩ := HarmIO.Data.dataset_round_trip hdf5
      { title := some title, reference := some reference } ⟨rfl, rfl, rfl⟩ rfl none ⟨d, []⟩ hm hwf (Or.inr rfl)
    simp only at k3 k4 k6 k8
    have hm' : out.h.month = [k] := by rw [k8 (by rw [hk]; simp), hk]
    have hnt : out.h.nt = none := by rw [k6, hn]; rfl
    refine ⟨file, out.h, ?_, ?_, k3.1, k3.2.1, hnt, ?_, hm', ?_⟩
    · unfold HarmIO.Data.dataWriter; rw [k1]; rfl
    · unfold HarmIO.Data.dataReader; rw [k2]; rfl
    · exact ⟨by rw [k4, hx, hnt]; rfl, by rw [hm', hnt]; rfl⟩
    · intro l m h1 h2 h3
      obtain ⟨q1, q2⟩ := k3.2.2 l m 0 h2 h3 (by rw [hn]; simp)
      rw [q1, q2, if_pos h1, if_pos h1]
      exact ⟨rfl, rfl⟩
  cases F with
  | ascii => exact absurd rfl hF
  | netCDF4 =>
    obtain ⟨f, h, k1, k2, k3⟩ := key false
    have r1 : cacheRead (.data f) = .ok h := by unfold cacheRead; simp only [k2]
    refine ⟨CacheFile.data f, ?_, Content.mk ⟨h, r1, k3⟩⟩
    unfold cacheWrite; simp only [k1]
  | HDF5 =>
    obtain ⟨f, h, k1, k2, k3⟩ := key true
    have r1 : cacheRead (.data f) = .ok h := by unfold cacheRead; simp only [k2]
    refine ⟨CacheFile.data f, ?_, Content.mk ⟨h, r1, k3⟩⟩
    unfold cacheWrite; simp only [k1]

theorem cacheWrite_ascii (fmt : ℝ → ℝ) (title reference : String) (d : Harm ℝ) (hm : d.mmax ≤ d.lmax) (x : ℚ) (hx : d.time = [x]) :
    ∃ f, cacheWrite fmt title reference .ascii d = .ok f ∧
      Content f d.lmax d.mmax (fun l m => fmt (d.clm l m 0)) (fun l m => fmt (d.slm l m 0))
        (Time.calendarToGrace (SpatialIO.roundTo 4 x)) := by
  refine ⟨.ascii (toAscii fmt d) (SpatialIO.roundTo 4 x), ?_, ?_⟩
  · unfold cacheWrite; simp only [hx]
  · obtain ⟨e1, e2, e3⟩ := ascii_roundtrip fmt d hm
    have r1 : cacheRead (.ascii (toAscii fmt d) (SpatialIO.roundTo 4 x)) = .ok { fromAscii (toAscii fmt d) with
        time := [SpatialIO.roundTo 4 x], month := [Time.calendarToGrace (SpatialIO.roundTo 4 x)] } := rfl
    refine Content.mk ⟨_, r1, e1, e2, rfl, ⟨rfl, rfl⟩, rfl, ?_⟩
    intro l m h1 h2 h3
    obtain ⟨q1, q2⟩ := e3 l m h2 h3
    exact ⟨q1.trans (if_pos h1), q2.trans (if_pos h1)⟩

/-- mean date of the points for which there is an error estimate -/
def meanTime (times : List ℚ) (H : ℕ) : ℚ :=
  ((List.range (times.length - 2 * H)).map fun i : ℕ => times.getD (i + H) 0).sum / ((times.length - 2 * H : ℕ) : ℚ)

/-- C92: a run for which no file of coefficient errors exists.  The error of every coefficient is the root mean square of the
difference between the data (without the static field, filtered if requested) and the fits of a trend, annual and semi-annual
cycle to the windows about the months; the value of the map at a point is the propagated error of the truncated series with
smoothing weights and unit factors, divided by the square root of the number of points.  The errors are stored in the file with
the name of the run and no other file is touched; netCDF4 and HDF5 files hold them with the number of points, text files the
rounded errors and, instead of the number of points, the month of the mean date. -/
theorem error_value (eps scalef cutoff : ℝ) (hsc : scalef ≠ 0) (erf : ℝ → ℝ) (tppf : ℝ → ℝ → ℝ) (fmt : ℝ → ℝ)
    (title reference : String) (r : Run) (hL : 2 ≤ r.o.LMAX) (hM : r.o.order ≤ r.o.LMAX) (grace : Harm ℝ) (n : ℕ)
    (D : Data r.o grace n) (meanFile : Option (Harm ℝ)) (hmf : ∀ f, meanFile = some f → f.nt = none)
    (H : ℕ) (hH : H = halfWidth r.PROC r.DREL) (hn : 2 * H < n) (hw : ∀ i < n - 2 * H, WindowOk H (times grace) i)
    (dfactor wt : ℕ → ℝ) (hwt : weights cutoff r.o.RAD r.o.LMAX = some wt) (lons lats : List ℚ)
    (fs : List Char → Option CacheFile) (hfs : fs (cacheName r grace) = none) :
    ∃ (fs' : List Char → Option CacheFile) (C S : ℕ → ℕ → ℝ) (f : CacheFile),
      spatialError eps scalef cutoff erf tppf fmt title reference r grace meanFile dfactor lons lats fs =
        .ok (fs', errorMap eps r.o (fun l => dfactor l * wt l) C S ((n - 2 * H : ℕ) : ℝ) lons lats) ∧
      (∀ l m, m ≤ l → l ≤ r.o.LMAX → m ≤ r.o.order →
        IsNoise n H (times grace) (input false r.o grace n meanFile l m) (C l m) ∧
        IsNoise n H (times grace) (input true r.o grace n meanFile l m) (S l m)) ∧
      (∀ name, name ≠ cacheName r grace → fs' name = fs name) ∧ fs' (cacheName r grace) = some f ∧
      (r.DATAFORM ≠ .ascii → Content f r.o.LMAX r.o.order C S ((n - 2 * H : ℕ) : ℤ)) ∧
      (r.DATAFORM = .ascii → Content f r.o.LMAX r.o.order (fun l m => fmt (C l m)) (fun l m => fmt (S l m))
        (Time.calendarToGrace (SpatialIO.roundTo 4 (meanTime grace.time H)))) := by
  have ht : grace.time.length = n := by rw [D.wf.1, D.nt]; rfl
  have hmo : grace.month.length = n := by rw [D.wf.2, D.nt]; rfl
  have hH1 : 1 ≤ H := by rw [hH]; unfold halfWidth; split <;> omega
  obtain ⟨a, a1, a2, A⟩ := anomaly_holds r.o grace n D meanFile hmf
  obtain ⟨g, g1, g2, G⟩ := filtered_holds r.o (by omega) a n _ _ _ A
  have tg : times g = times grace := by unfold times; rw [G.time]
  obtain ⟨d, d1, d2, d3, d4, d5, d6, d7⟩ := deltaField_value erf tppf H r.o.LMAX r.o.order n hH1 hn g grace.time grace.month ht _ G
    (by rw [tg]; exact hw)
  have hwf : d.WF := ⟨by rw [d5, d4]; rfl, by rw [d6, d4]; rfl⟩
  have hgrid := errorGrid_value eps scalef hsc r.o hL hM dfactor wt d d2 d3 d4 hwf ((n - 2 * H : ℕ) : ℝ) lons lats
    (fun l m => d.clm l m 0) (fun l m => d.slm l m 0) (fun _ _ _ _ _ => ⟨rfl, rfl⟩)
  obtain ⟨f, f1, f2, f3⟩ : ∃ f, cacheWrite fmt title reference r.DATAFORM d = .ok f ∧
      (r.DATAFORM ≠ .ascii → Content f r.o.LMAX r.o.order (fun l m => d.clm l m 0) (fun l m => d.slm l m 0) ((n - 2 * H : ℕ) : ℤ)) ∧
      (r.DATAFORM = .ascii → Content f r.o.LMAX r.o.order (fun l m => fmt (d.clm l m 0)) (fun l m => fmt (d.slm l m 0))
        (Time.calendarToGrace (SpatialIO.roundTo 4 (meanTime grace.time H)))) := by
    by_cases hF : r.DATAFORM = .ascii
    · obtain ⟨f, f1, f2⟩ := cacheWrite_ascii fmt title reference d (by omega) _ d5
      refine ⟨f, by rw [hF]; exact f1, fun h => absurd hF h, fun _ => ?_⟩
      rw [← d2, ← d3]
      unfold meanTime
      rw [ht]
      exact f2
    · obtain ⟨f, f1, f2⟩ := cacheWrite_data fmt title reference r.DATAFORM hF d (by omega) d4 _ d6 _ d5
      refine ⟨f, f1, fun _ => ?_, fun h => absurd h hF⟩
      rw [← d2, ← d3]
      exact f2
  have hne : grace.month ≠ [] := by intro h; rw [h] at hmo; simp at hmo; omega
  have hname : ∃ m0 m1, g.month.head? = some m0 ∧ g.month.getLast? = some m1 ∧ deltaName r m0.toNat m1.toNat = cacheName r grace := by
    rw [G.month]
    unfold cacheName
    rw [List.headD_eq_head?_getD, List.getLastD_eq_getLast?]
    refine ⟨grace.month.head hne, grace.month.getLast hne, List.head?_eq_some_head hne, List.getLast?_eq_some_getLast hne, ?_⟩
    rw [List.head?_eq_some_head hne, List.getLast?_eq_some_getLast hne]
    rfl
  obtain ⟨m0, m1, n1, n2, n3⟩ := hname
  refine ⟨Function.update fs (cacheName r grace) (some f), fun l m => d.clm l m 0, fun l m => d.slm l m 0, f, ?_, ?_, ?_, ?_, f2, f3⟩
  · unfold spatialError
    rw [hwt]; simp only
    rw [a1]; simp only [lift]
    rw [g1]; simp only
    rw [n1, n2]; simp only
    rw [n3]
    unfold deltaStep
    rw [hfs]; simp only
    rw [← hH, d1]; simp only
    rw [f1]; simp only
    rw [show g.time.length = n by rw [G.time]; exact ht, hgrid]
  · intro l m h1 h2 h3
    have := d7 l m h1 h2 h3
    rw [tg] at this
    exact this
  · intro name h
    exact Function.update_of_ne h _ _
  · simp

/-- C92: a run for which a file of coefficient errors exists makes its map from the errors and the number of points in the file;
the data of the run have no influence except for the name, and no file changes -/
theorem cached_value (eps scalef cutoff : ℝ) (hsc : scalef ≠ 0) (erf : ℝ → ℝ) (tppf : ℝ → ℝ → ℝ) (fmt : ℝ → ℝ)
    (title reference : String) (r : Run) (hL : 2 ≤ r.o.LMAX) (hM : r.o.order ≤ r.o.LMAX) (grace : Harm ℝ) (n : ℕ) (hn : 0 < n)
    (D : Data r.o grace n) (meanFile : Option (Harm ℝ)) (hmf : ∀ f, meanFile = some f → f.nt = none)
    (dfactor wt : ℕ → ℝ) (hwt : weights cutoff r.o.RAD r.o.LMAX = some wt) (lons lats : List ℚ)
    (fs : List Char → Option CacheFile) (f : CacheFile) (hfs : fs (cacheName r grace) = some f) (C S : ℕ → ℕ → ℝ) (k : ℤ)
    (hk : k ≠ 0) (hc : Content f r.o.LMAX r.o.order C S k) :
    spatialError eps scalef cutoff erf tppf fmt title reference r grace meanFile dfactor lons lats fs =
      .ok (fs, errorMap eps r.o (fun l => dfactor l * wt l) C S (k : ℝ) lons lats) := by
  have hmo : grace.month.length = n := by rw [D.wf.2, D.nt]; rfl
  obtain ⟨a, a1, a2, A⟩ := anomaly_holds r.o grace n D meanFile hmf
  obtain ⟨g, g1, g2, G⟩ := filtered_holds r.o (by omega) a n _ _ _ A
  obtain ⟨h, h1, h2, h3, h4, h5, h6, h7⟩ := hc.read
  have hne : grace.month ≠ [] := by intro h; rw [h] at hmo; simp at hmo; omega
  obtain ⟨t1, t2, t3, t4, t5, t6⟩ := truncate_spec h r.o.LMAX 0 r.o.order (order_ne_zero r.o (by omega))
  have hgrid := errorGrid_value eps scalef hsc r.o hL hM dfactor wt (truncate h (some r.o.LMAX) 0 (some r.o.order)) t1 t2
    (t3.trans h4) ⟨by rw [t4, t3]; exact h5.1, by rw [t5, t3]; exact h5.2⟩ (k : ℝ) lons lats C S (by
      intro l m q1 q2 q3
      obtain ⟨c1, c2⟩ := t6 l m 0
      obtain ⟨e1, e2⟩ := h7 l m q1 q2 q3
      rw [c1, c2, if_pos ⟨by omega, ⟨q2, by omega⟩, q3, by omega⟩, if_pos ⟨by omega, ⟨q2, by omega⟩, q3, by omega⟩]
      exact ⟨e1, e2⟩)
  unfold spatialError
  rw [hwt]; simp only
  rw [a1]; simp only [lift]
  rw [g1]; simp only
  rw [G.month, List.head?_eq_some_head hne, List.getLast?_eq_some_getLast hne]
  simp only
  have hnm : deltaName r (grace.month.head hne).toNat (grace.month.getLast hne).toNat = cacheName r grace := by
    unfold cacheName
    rw [List.headD_eq_head?_getD, List.getLastD_eq_getLast?, List.head?_eq_some_head hne, List.getLast?_eq_some_getLast hne]
    rfl
  rw [hnm]
  unfold deltaStep
  rw [hfs]; simp only
  rw [h1]; simp only
  unfold storedCount
  rw [h6]; simp only
  rw [if_neg hk]; simp only
  rw [hgrid]

end Verif.SpatialError
