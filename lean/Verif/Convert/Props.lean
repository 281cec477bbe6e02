import Verif.Convert.Lemmas
import Verif.HarmIO.Data

/-!
# C96: maps converted to spherical harmonics (`convert_harmonics`)
-/
namespace Verif.Convert
open Verif.Analysis Verif.Units Verif.Harmonics
open Verif.SpatialIO.Data (Sp Arr expandDims updateMask Grid Consistent at3 atleast1d)
open Verif.Time (adjustMonths adjustMonths_length)

/-- the series of coefficients of the prepared maps -/
theorem coefficients_dated (E : Earth) (eps scalef : ℝ) (hs : scalef ≠ 0) (LMAX : ℕ) (hL : 2 ≤ LMAX) (MMAX : Option ℕ)
    (hM : MMAX.getD LMAX ≤ LMAX) (u : UnitArg) (kl df w : ℕ → ℝ) (sort : List ℚ → List ℕ) (hsort : ∀ ts, IsArgsort ts (sort ts))
    (p : Sp) (nlat nlon nt : ℕ) (hnt : 0 < nt) (h1 : 2 ≤ nlon) (h2 : 2 ≤ nlat) (hsh : p.data.shape = [nlat, nlon, nt])
    (hlon : p.lon.flat.length = nlon) (hlat : p.lat.flat.length = nlat) (hu : StokesSpec E u kl (axis p.lon) (axis p.lat) df w)
    (hpole : ∀ j < nlat, (-90 < axis p.lat j ∧ axis p.lat j < 90) ∨ w j = 0) (ht : p.time.shape.headD 0 = nt)
    (v : ℕ → ℕ → ℕ → ℚ) (hv : ∀ j < nlat, ∀ i < nlon, ∀ t < nt, cell p nlon nt j i t = some (v j i t)) :
    ∃ (h : Harm ℝ) (q : List ℕ), coefficients E eps scalef LMAX MMAX u kl sort true p = .ok h ∧ h.lmax = LMAX ∧ h.mmax = MMAX.getD LMAX ∧
      h.nt = some nt ∧ h.WF ∧ h.time.Pairwise (· ≤ ·) ∧ q.Perm (List.range nt) ∧
      (((List.range nt).map fun t => Time.calendarToGrace (timeAt p t)).Nodup → h.month.Nodup) ∧
      ∀ s t, q[s]? = some t → h.time.getD s 0 = timeAt p t ∧
        IsExpansion LMAX (MMAX.getD LMAX) df nlon nlat (axis p.lon) (axis p.lat) w (seen nlat nlon fun j i => v j i t)
          (fun l m => h.clm l m s) (fun l m => h.slm l m s) ∧
        (((List.range nt).map fun t => Time.calendarToGrace (timeAt p t)).Nodup →
          h.month.getD s 0 = Time.calendarToGrace (timeAt p t)) := by
  obtain ⟨ys, hy, hlen, hall⟩ := mapM_all (oneMap E eps scalef LMAX MMAX u kl true p nlat nlon nt) (fun t y => y.lmax = LMAX ∧
      y.mmax = MMAX.getD LMAX ∧ y.time = [timeAt p t] ∧ y.month = [Time.calendarToGrace (timeAt p t)] ∧
      IsExpansion LMAX (MMAX.getD LMAX) df nlon nlat (axis p.lon) (axis p.lat) w (seen nlat nlon fun j i => v j i t)
        (fun l m => y.clm l m 0) (fun l m => y.slm l m 0)) nt (by
    intro t htt
    obtain ⟨y, a1, a2, a3, a4, a5, a6⟩ := oneMap_value E eps scalef hs LMAX hL MMAX hM u kl df w true p nlat nlon nt t h1 h2 hlon
      hlat hu hpole (by omega) (fun j i => v j i t) (fun j hj i hi => hv j hj i hi t htt)
    exact ⟨y, a1, a2, a3, a4, a5, a6⟩)
  have hne : ys ≠ [] := by intro h; rw [h] at hlen; simp at hlen; omega
  have hsrt := hsort (ys.map fun y => y.time.headD 0)
  obtain ⟨r, r1, r2, ⟨o1, m1, r3⟩, ⟨o2, m2, r4⟩, -, r6, r7, r8⟩ := fromList_spec ys hne _ hsrt
  have hmem : ∀ o ∈ ys, o.lmax = LMAX ∧ o.mmax = MMAX.getD LMAX := by
    intro o ho
    obtain ⟨t, htl, rfl⟩ := List.mem_iff_getElem.1 ho
    obtain ⟨y, b1, b2, b3, -⟩ := hall t (by omega)
    rw [List.getElem?_eq_getElem htl, Option.some.injEq] at b1
    rw [b1]
    exact ⟨b2, b3⟩
  have hmonths : (ys.map fun o => o.month.headD 0) = (List.range nt).map fun t => Time.calendarToGrace (timeAt p t) := by
    apply List.ext_getElem (by simp [hlen])
    intro t c1 c2
    obtain ⟨y, b1, -, -, -, b5, -⟩ := hall t (by simpa using c2)
    have htl : t < ys.length := by simpa using c1
    rw [List.getElem?_eq_getElem htl, Option.some.injEq] at b1
    simp [b1, b5]
  have hwf : r.time.length = (sort (ys.map fun y => y.time.headD 0)).length ∧
      r.month.length = (sort (ys.map fun y => y.time.headD 0)).length := by
    unfold fromList at r1
    split at r1
    · cases r1
      simp [adjustMonths_length]
    · cases r1
  have hql : (sort (ys.map fun y => y.time.headD 0)).length = nt := by rw [r7.length_eq]; simp [hlen]
  set q := sort (ys.map fun y => y.time.headD 0) with hq
  have key : ∀ s t, q[s]? = some t → r.time.getD s 0 = timeAt p t ∧
        IsExpansion LMAX (MMAX.getD LMAX) df nlon nlat (axis p.lon) (axis p.lat) w (seen nlat nlon fun j i => v j i t)
          (fun l m => r.clm l m s) (fun l m => r.slm l m s) ∧
        (((List.range nt).map fun t => Time.calendarToGrace (timeAt p t)).Nodup →
          r.month.getD s 0 = Time.calendarToGrace (timeAt p t)) := by
    intro s t hst
    obtain ⟨o, c1, c2, c3, c4⟩ := r8 s t hst
    have htn : t < nt := by
      have := List.mem_of_getElem? hst
      rw [r7.mem_iff, List.mem_range, hlen] at this
      exact this
    obtain ⟨y, b1, b2, b3, b4, b5, b6⟩ := hall t htn
    rw [c1, Option.some.injEq] at b1
    subst b1
    refine ⟨by rw [c2, b4]; rfl, ?_, fun hn => by rw [c4 (by rw [hmonths]; exact hn), b5]; rfl⟩
    intro l m hl hm
    obtain ⟨d1, d2⟩ := c3 l m (by rw [r3, (hmem o1 m1).1]; exact hl) (by rw [r4, (hmem o2 m2).2]; exact hm)
    simp only [d1, d2]
    exact b6 l m hl hm
  refine ⟨r, q, ?_, by rw [r3, (hmem o1 m1).1], by rw [r4, (hmem o2 m2).2], by rw [r2, hlen],
    ⟨by rw [hwf.1, hql, r2, hlen]; rfl, by rw [hwf.2, hql, r2, hlen]; rfl⟩, r6, by rw [hlen] at r7; exact r7, ?_, key⟩
  · unfold coefficients
    rw [hsh]
    simp only
    rw [hy]
    simp only [collect, if_true]
    rw [← hq, r1]
  · intro hn
    have : r.month = q.map fun t => Time.calendarToGrace (timeAt p t) := by
      apply List.ext_getElem (by rw [hwf.2]; simp)
      intro s c1 c2
      have hsq : s < q.length := by simpa using c2
      have := (key s q[s] (List.getElem?_eq_getElem hsq)).2.2 hn
      rw [List.getD_eq_getElem?_getD, List.getElem?_eq_getElem c1] at this
      simpa using this
    rw [this]
    have hp : (q.map fun t => Time.calendarToGrace (timeAt p t)).Perm ((List.range nt).map fun t => Time.calendarToGrace (timeAt p t)) := by
      rw [hlen] at r7
      exact r7.map _
    exact hp.nodup_iff.2 hn

/-- a file with maps, square or not.  The output file read back holds one field per map, in the order of the dates; the
coefficients of a map are the numerical integrals of its values times the degree factors of the units, missing cells counting as
zero; each field keeps the date of its map and the month of this date (if no two maps are of one month). -/
theorem convert_seen (hdf5 : Bool) (E : Earth) (eps scalef : ℝ) (hs : scalef ≠ 0) (LMAX : ℕ) (hL : 2 ≤ LMAX) (MMAX : Option ℕ)
    (hM : MMAX.getD LMAX ≤ LMAX) (u : UnitArg) (kl df w : ℕ → ℝ) (sort : List ℚ → List ℕ) (hsort : ∀ ts, IsArgsort ts (sort ts))
    (root : SpatialIO.Data.Attrs) (f : SpatialIO.Data.File) (old : Option (HarmIO.Data.File ℝ)) (o : Sp)
    (hr : SpatialIO.Data.read {} true f = .ok o) (nlat nlon nt : ℕ) (hnt : 0 < nt) (h1 : 2 ≤ nlon) (h2 : 2 ≤ nlat)
    (hg : Grid o nlat nlon nt) (hc : Consistent o)
    (hu : StokesSpec E u kl (axis o.lon) (axis o.lat) df w)
    (hpole : ∀ j < nlat, (-90 < axis o.lat j ∧ axis o.lat j < 90) ∨ w j = 0)
    (v : ℕ → ℕ → ℕ → ℚ) (hv : ∀ j < nlat, ∀ i < nlon, ∀ t < nt, Holds o j i t (v j i t)) :
    ∃ (file : HarmIO.Data.File ℝ) (out : HarmIO.Data.Out ℝ) (q : List ℕ), convert hdf5 E eps scalef LMAX MMAX u kl sort true root f old = .ok file ∧ HarmIO.Data.read true file = .ok out ∧
      out.h.lmax = LMAX ∧ out.h.mmax = MMAX.getD LMAX ∧ out.h.nt = (if nt = 1 then none else some nt) ∧ out.h.time.length = nt ∧
      out.h.time.Pairwise (· ≤ ·) ∧ q.Perm (List.range nt) ∧
      ∀ s t, q[s]? = some t → out.h.time.getD s 0 = timeAt o t ∧
        IsExpansion LMAX (MMAX.getD LMAX) df nlon nlat (axis o.lon) (axis o.lat) w (seen nlat nlon fun j i => v j i t)
          (fun l m => out.h.clm l m s) (fun l m => out.h.slm l m s) ∧
        (((List.range nt).map fun t => Time.calendarToGrace (timeAt o t)).Nodup →
          out.h.month.getD s 0 = Time.calendarToGrace (timeAt o t)) := by
  have hS : Shape o nlat nlon nt := ⟨hg.lat, hg.lon, hg.data, hg.mask, hg.size⟩
  obtain ⟨p, p1, p2, p3, p4, p5, p6⟩ := prepared_cells true f o hr nlat nlon nt hS hc
  have htl : p.time.shape.headD 0 = nt ∧ p.time.flat = o.time.flat := by
    rw [p4]
    unfold atleast1d
    rcases hg.time.1 with h | ⟨rfl, h⟩
    · rw [if_neg (by rw [h]; simp), h]; exact ⟨rfl, rfl⟩
    · rw [if_pos h]; exact ⟨rfl, rfl⟩
  have hta : ∀ t, timeAt p t = timeAt o t := fun t => by unfold timeAt; rw [htl.2]
  obtain ⟨h, q, c1, c2, c3, c4, c5, c6, c7, c8, c9⟩ := coefficients_dated E eps scalef hs LMAX hL MMAX hM u kl df w sort hsort p nlat nlon
    nt hnt h1 h2 p5 (by rw [p3]; exact hg.lon.2) (by rw [p2]; exact hg.lat.2) (by rw [p2, p3]; exact hu) (by rw [p2]; exact hpole)
    htl.1 v (fun j hj i hi t ht => p6 j hj i hi t ht _ (hv j hj i hi t ht))
  simp only [hta] at c8 c9
  have hqn : q.length = nt := by rw [c7.length_eq]; simp
  obtain ⟨o', file, out, d1, -, d3, d4, d5, d6, d7, -, d9⟩ := HarmIO.Data.dataset_round_trip hdf5 { date := true } ⟨rfl, rfl, rfl⟩ rfl
    old ⟨h, root⟩ (by simp only [c2, c3]; exact hM) c5 (Or.inl rfl)
  simp only at d4 d5 d6 d7 d9
  obtain ⟨e1, e2, e3⟩ := d4
  refine ⟨file, out, q, ?_, d3, by rw [e1, c2], by rw [e2, c3], by rw [d7, c4]; rfl,
    by rw [d5, c5.1, c4]; rfl, by rw [d5]; exact c6, c7, ?_⟩
  · unfold convert
    rw [p1]
    simp only
    rw [c1]
    simp only
    rw [d1]
  · intro s t hst
    obtain ⟨f1, f2, f3⟩ := c9 s t hst
    have hsn : s < nt := by rw [← hqn]; exact (List.getElem?_eq_some_iff.1 hst).1
    refine ⟨by rw [d5]; exact f1, ?_, fun hn => by rw [d9 (c8 hn)]; exact f3 hn⟩
    intro l m hl hm
    obtain ⟨g1, g2⟩ := e3 l m s (by rw [c2]; exact hl) (by rw [c3]; exact hm) (by rw [c4]; exact hsn)
    obtain ⟨k1, k2⟩ := f2 l m hl hm
    rw [p2, p3] at k1
    refine ⟨fun hml => ?_, fun hml => ?_⟩
    · simp only [g1, g2, if_pos hml]
      exact k1 hml
    · simp only [g1, g2, if_neg (not_le.2 hml)]
      exact ⟨trivial, trivial⟩

end Verif.Convert
