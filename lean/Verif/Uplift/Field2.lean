import Verif.Uplift.Fields
import Verif.Harmonics.Flatten

/-!
# From the arrays of a month to its maps (C97)
-/
namespace Verif.Uplift
open Verif.Names Verif.Time Verif.Time.Spec Verif.Dealias Verif.Harmonics Verif.Legendre
open Verif.GeoRead (pad2 pad4)

/-- a coefficient of a stored field; zero if nothing was stored -/
noncomputable def valueAt (f : Coef → ℚ) (o : Option Column) (l m : ℕ) : ℝ :=
  (((o.bind fun c => c.block.rows.find? fun k => k.l = l ∧ k.m = m).map f).getD 0 : ℚ)

theorem find_rows (L : ℕ) (P : List (ℕ × ℕ)) (hP : Layout L P) (h : Hour) (l m : ℕ) (hml : m ≤ l) (hl : l ≤ L) :
    (rowsOf P h).find? (fun k => k.l = l ∧ k.m = m) = some ⟨l, m, h.c l m, h.s l m⟩ := by
  simp only [rowsOf, List.find?_map, Function.comp_def]
  have : P.find? (fun p => decide (p.1 = l ∧ p.2 = m)) = some (l, m) := by
    have hs : (P.find? (fun p => decide (p.1 = l ∧ p.2 = m))).isSome := by
      rw [List.find?_isSome]; exact ⟨(l, m), (hP.2 l m).2 ⟨hml, hl⟩, by simp⟩
    obtain ⟨q, hq⟩ := Option.isSome_iff_exists.1 hs
    have := List.find?_some hq
    simp only [decide_eq_true_eq] at this
    rw [hq, ← this.1, ← this.2]
  rw [this]
  rfl

/-- the map of a position -/
noncomputable def mapOf (eps : ℝ) (rise : ℕ → ℝ) (L : ℕ) (lons lats : List ℚ) (o : Option Column) : List (List ℝ) :=
  lats.map fun lat : ℚ => lons.map fun lon : ℚ =>
    Maps.series 0 L L rise (valueAt Coef.c o) (valueAt Coef.s o) (Real.cos ((90 - (lat : ℝ)) * Real.pi / 180))
      (codeU eps (Real.cos ((90 - (lat : ℝ)) * Real.pi / 180))) ((lon : ℝ) * Real.pi / 180)

theorem mapOf_none (eps : ℝ) (rise : ℕ → ℝ) (L : ℕ) (lons lats : List ℚ) :
    mapOf eps rise L lons lats none = lats.map fun _ => lons.map fun _ => 0 := by
  unfold mapOf valueAt Maps.series
  simp

theorem series_congr (A B M : ℕ) (f : ℕ → ℝ) (C S C' S' : ℕ → ℕ → ℝ) (x u phi : ℝ)
    (h : ∀ l m, m ≤ l → l ≤ B → C l m = C' l m ∧ S l m = S' l m) :
    Maps.series A B M f C S x u phi = Maps.series A B M f C' S' x u phi := by
  unfold Maps.series
  refine Finset.sum_congr rfl fun l hl => Finset.sum_congr rfl fun m hm => ?_
  have h1 := Finset.mem_Icc.1 hl
  have h2 := Finset.mem_range.1 hm
  obtain ⟨a, b⟩ := h l m (by omega) h1.2
  rw [a, b]

theorem mapOf_some (eps : ℝ) (rise : ℕ → ℝ) (L : ℕ) (lons lats : List ℚ) (P : List (ℕ × ℕ)) (hP : Layout L P) (y m d : ℕ) (h : Hour) :
    mapOf eps rise L lons lats (some (colOf P y m d h)) = upliftMap eps rise L lons lats h := by
  unfold mapOf upliftMap
  refine List.map_congr_left fun lat _ => List.map_congr_left fun lon _ => ?_
  apply series_congr
  intro l m hml hl
  unfold valueAt colOf
  simp only [Option.bind_some, find_rows L P hP h l m hml hl]
  exact ⟨rfl, rfl⟩

theorem mapM_okR {A B E : Type} (xs : List A) (f : A → Except E B) (g : A → B) (h : ∀ x ∈ xs, f x = .ok (g x)) :
    xs.mapM f = .ok (xs.map g) := by
  induction xs with
  | nil => rfl
  | cons x xs ih =>
    rw [List.mapM_cons, h x (by simp), ih fun y hy => h y (by simp [hy])]
    rfl

/-- the maps of the arrays of a month -/
theorem mapsOf_ok (eps scalef : ℝ) (hs : scalef ≠ 0) (L total y m : ℕ) (hL : 2 ≤ L) (P : List (ℕ × ℕ)) (hP : Layout L P)
    (dfactor : ℕ → ℝ) (lons lats : List ℚ) (since : Name) (s : Store) (hlast : ∃ h, s.last = rowsOf P h)
    (hcols : ∀ t < total, s.cols t = none ∨ ∃ d h, s.cols t = some (colOf P y m d h))
    (htime : ∀ t < total, ∃ x, timeOf (s.cols t) = some x) :
    mapsOf eps scalef L P.length total dfactor lons lats since s =
      some ⟨lons, lats, (List.range total).map fun t => mapOf eps dfactor L lons lats (s.cols t),
        (List.range total).map fun t => hoursOf (s.cols t), since⟩ := by
  obtain ⟨h0, hlast⟩ := hlast
  have htimes : ∃ times : List ℚ, ((List.range total).mapM fun t => timeOf (s.cols t)) = some times ∧ times.length = total := by
    have : ∀ t ∈ List.range total, timeOf (s.cols t) = some ((timeOf (s.cols t)).getD 0) := by
      intro t ht
      obtain ⟨x, hx⟩ := htime t (List.mem_range.1 ht)
      rw [hx]; rfl
    exact ⟨_, mapM_some _ _ _ this, by simp⟩
  obtain ⟨times, ht1, ht2⟩ := htimes
  set fl := flatOf L P.length total s times with hfl
  have hrow : fl.rows = (List.range P.length).map fun k : ℕ =>
      ({ l := ((P[k]?).map Prod.fst).getD 0, m := ((P[k]?).map Prod.snd).getD 0
         c := fun t => (((((s.cols t).bind fun c => c.block.rows[k]?).map Coef.c).getD 0 : ℚ) : ℝ)
         s := fun t => (((((s.cols t).bind fun c => c.block.rows[k]?).map Coef.s).getD 0 : ℚ) : ℝ) } : Row ℝ) := by
    rw [hfl]
    unfold flatOf
    simp only [hlast]
    simp [rowsOf, List.getElem?_map, Option.map_map, Function.comp_def]
  have hkey : fl.rows.map (fun r => (r.l, r.m)) = P := by
    rw [hrow, List.map_map]
    apply List.ext_getElem
    · simp
    · intro i hi hi2
      simp [hi2]
  have e1 : fl.lmax = L := rfl
  have e2 : fl.mmax = L := rfl
  have e3 : fl.nt = some total := rfl
  have e4 : fl.time = times := rfl
  have e5 : fl.month = times.map calendarToGrace := rfl
  have hall2 : fl.rows.all (fun r => decide (r.l ≤ fl.lmax) && decide (r.m ≤ fl.mmax)) = true := by
    rw [List.all_eq_true]
    intro r hr
    have : (r.l, r.m) ∈ P := by rw [← hkey]; exact List.mem_map.2 ⟨r, hr, rfl⟩
    have h := (hP.2 _ _).1 this
    simp only [e1, e2, Bool.and_eq_true, decide_eq_true_eq]
    omega
  have hexp := expand_ok fl hall2
  have hlook : ∀ l m', m' ≤ l → l ≤ L → ∀ t < total,
      rowLoop fl.rows (fun r => (r.l, r.m)) Row.c (fun _ _ => (0 : ℝ)) (l, m') t = valueAt Coef.c (s.cols t) l m' ∧
      rowLoop fl.rows (fun r => (r.l, r.m)) Row.s (fun _ _ => (0 : ℝ)) (l, m') t = valueAt Coef.s (s.cols t) l m' := by
    intro l m' hml hlL t ht
    obtain ⟨k, hk, hkP⟩ := List.getElem_of_mem ((hP.2 l m').2 ⟨hml, hlL⟩)
    have hkl : k < fl.rows.length := by rw [hrow]; simpa using hk
    have hr : (fl.rows[k]).l = l ∧ (fl.rows[k]).m = m' := by
      simp only [hrow, List.getElem_map, List.getElem_range]
      rw [List.getElem?_eq_getElem hk, hkP]
      exact ⟨rfl, rfl⟩
    have hnd : (fl.rows.map fun r => (r.l, r.m)).Nodup := by rw [hkey]; exact hP.1
    have a := rowLoop_nodup fl.rows (fun r => (r.l, r.m)) Row.c (fun _ _ => (0 : ℝ)) hnd _ (List.getElem_mem hkl)
    have b := rowLoop_nodup fl.rows (fun r => (r.l, r.m)) Row.s (fun _ _ => (0 : ℝ)) hnd _ (List.getElem_mem hkl)
    simp only [hr.1, hr.2] at a b
    rw [a, b]
    simp only [hrow, List.getElem_map, List.getElem_range]
    unfold valueAt
    rcases hcols t ht with hc | ⟨d, h, hc⟩
    · rw [hc]; exact ⟨rfl, rfl⟩
    · rw [hc]
      simp only [colOf, Option.bind_some, find_rows L P hP h l m' hml hlL]
      simp only [rowsOf, List.getElem?_map, List.getElem?_eq_getElem hk, Option.map_some, hkP]
      exact ⟨trivial, trivial⟩
  have hwf : (⟨fl.lmax, fl.mmax, fl.nt, fun l m => rowLoop fl.rows (fun r => (r.l, r.m)) Row.c (fun _ _ => (0 : ℝ)) (l, m),
      fun l m => rowLoop fl.rows (fun r => (r.l, r.m)) Row.s (fun _ _ => (0 : ℝ)) (l, m), fl.time, fl.month⟩ : Harm ℝ).WF := by
    constructor
    · simp [e3, e4, ht2]
    · simp [e3, e5, ht2]
  obtain ⟨r, hr, r1, r2, r3, r4, r5, r6⟩ := convolve_spec _ hwf ((List.range (L + 1)).map dfactor) (by simp [e1])
  simp only [e1, e2, e3] at r1 r2 r3 r6
  have hrwf : r.WF := by
    constructor
    · rw [r4, r3]; simp [e4, ht2]
    · rw [r5, r3]; simp [e5, ht2]
  have hmap : ∀ t ∈ List.range total, mapAt eps scalef L r lons lats t = .ok (mapOf eps dfactor L lons lats (s.cols t)) := by
    intro t ht
    have ht := List.mem_range.1 ht
    unfold mapAt
    rw [index_ok r total t r3 hrwf ht]
    simp only
    unfold mapOf
    apply Maps.synthesis_value eps scalef hs 0 L L hL le_rfl
    · exact r1.ge
    · exact r2.ge
    · intro l m' hml hlL _
      obtain ⟨q1, q2⟩ := r6 l m' t hlL (by simpa using ht)
      obtain ⟨w1, w2⟩ := hlook l m' hml hlL t ht
      simp only [List.getElem_map, List.getElem_range] at q1 q2
      rw [w1] at q1; rw [w2] at q2
      exact ⟨q1, q2⟩
  unfold mapsOf
  rw [ht1]
  simp only
  rw [← hfl, hexp]
  simp only
  rw [hr]
  simp only
  rw [mapM_okR _ _ _ hmap]

/-- every position has a date -/
theorem time_some (P : List (ℕ × ℕ)) (y m d : ℕ) (h4 : (y : ℤ) % 4000 ≠ 0) (hm : 1 ≤ m ∧ m ≤ 12) (h : Hour) :
    ∃ x, timeOf (some (colOf P y m d h)) = some x := by
  have := fieldTime_eq ⟨y, m, d, [h]⟩ h h4 hm.1 hm.2
  refine ⟨fieldTime ⟨y, m, d, [h]⟩ h, ?_⟩
  unfold hourTime at this
  unfold timeOf colOf
  simpa using this

theorem time_none : ∃ x, timeOf none = some x := ⟨_, rfl⟩

end Verif.Uplift
