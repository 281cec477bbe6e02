import Verif.Maps.Lemmas

/-!
# C89: monthly maps from spherical harmonic fields (`grace_spatial_maps`, `combine_harmonics`)
-/
namespace Verif.Maps
open Verif.Harmonics Verif.Synthesis Verif.Legendre

/-! ## grace_spatial_maps -/

/-- C89: `grace_spatial_maps` makes one map per month, in order, with the date of the month.  The value of map `i` at a grid
point is the spherical harmonic series, in the degrees `LMIN..LMAX` and orders up to the maximum order, of the anomaly of the
data of that month minus the GIA change since 2003.3 minus the removed fields of the same month, with the smoothing weight and
the unit factor of every degree.  At a pole the sine of the colatitude is replaced by the constant `eps` of `plm_holmes`. -/
theorem spatialMaps_value (eps scalef cutoff : ℝ) (hsc : scalef ≠ 0) (o : Opts) (hL : 2 ≤ o.LMAX) (hM : o.order ≤ o.LMAX)
    (grace : Harm ℝ) (n : ℕ) (D : Data o grace n) (meanFile : Option (Harm ℝ)) (hmf : ∀ f, meanFile = some f → f.nt = none)
    (gia : Harm ℝ) (removed : List (Harm ℝ)) (C : ∀ h ∈ removed, Covers grace h)
    (ho : ∀ oc, o.ocean = some oc → 2 ≤ n ∧ oc.lmax = o.LMAX ∧ oc.mmax = o.order)
    (dfactor wt : ℕ → ℝ) (hw : weights cutoff o.RAD o.LMAX = some wt) (lons lats : List ℚ) :
    ∃ maps, spatialMaps eps scalef cutoff o grace meanFile gia (removed.map .index) dfactor lons lats = .ok maps ∧
      maps.length = n ∧
      ∀ i < n, ∃ M, maps[i]? = some M ∧ M.time = [grace.time.getD i 0] ∧ M.month = [grace.month.getD i 0] ∧
        M.data.length = lats.length ∧
        ∀ (j : ℕ) (lat : ℚ), lats[j]? = some lat → ∃ row, M.data[j]? = some row ∧ row.length = lons.length ∧
          ∀ (k : ℕ) (lon : ℚ), lons[k]? = some lon → row[k]? = some
            (series o.LMIN o.LMAX o.order (fun l => dfactor l * wt l)
              (signal false o grace n meanFile gia removed i) (signal true o grace n meanFile gia removed i)
              (Real.cos ((90 - (lat : ℝ)) * Real.pi / 180))
              (codeU eps (Real.cos ((90 - (lat : ℝ)) * Real.pi / 180))) ((lon : ℝ) * Real.pi / 180)) := by
  have ht : grace.time.length = n := by rw [D.wf.1, D.nt]; rfl
  have hmo : grace.month.length = n := by rw [D.wf.2, D.nt]; rfl
  obtain ⟨a, a1, a2, A⟩ := anomaly_holds o grace n D meanFile hmf
  obtain ⟨f, f1, f2, F⟩ := filtered_holds o (by omega) a n _ _ _ A
  have hz : Holds (zerosLike f) o.LMAX o.order n grace.time grace.month (fun _ _ _ _ => 0) :=
    ⟨F.lmax, F.mmax, F.nt, F.time, F.month, fun b t l m _ _ _ _ => by cases b <;> rfl⟩
  obtain ⟨r, r1, r2, R⟩ := removedSum_holds o (by omega) grace f n D F.month ho removed C (zerosLike f) _ (f2.trans a2) hz
  have key := mapM_ok (monthMap eps scalef o (factorList o.LMAX dfactor wt) f (giaSeries gia f) r lons lats) _ (List.range n)
    fun i hi => monthMap_value eps scalef hsc o hL hM dfactor wt f r gia n grace.time grace.month _ _ (f2.trans a2) r2 ht hmo F R
      lons lats i (List.mem_range.1 hi)
  have run : spatialMaps eps scalef cutoff o grace meanFile gia (removed.map .index) dfactor lons lats =
      (List.range n).mapM (monthMap eps scalef o (factorList o.LMAX dfactor wt) f (giaSeries gia f) r lons lats) := by
    unfold spatialMaps
    rw [hw]
    simp only
    rw [a1]
    simp only
    rw [f1]
    simp only
    rw [r1]
    simp only
    rw [F.month, hmo]
  refine ⟨_, run.trans key, ?_, ?_⟩
  · simp
  · intro i hi
    refine ⟨_, by rw [List.getElem?_map, List.getElem?_range hi]; rfl, rfl, rfl, by simp, ?_⟩
    intro j lat hj
    refine ⟨_, by rw [List.getElem?_map, hj]; rfl, by simp, ?_⟩
    intro k lon hk
    rw [List.getElem?_map, hk, Option.map_some]
    simp only [zero_add]
    rfl

/-- C89: between the poles the value is the series at the point -/
theorem series_interior (eps : ℝ) (lat : ℝ) (h1 : -90 < lat) (h2 : lat < 90) :
    codeU eps (Real.cos ((90 - lat) * Real.pi / 180)) = Real.sin ((90 - lat) * Real.pi / 180) := by
  have hpi := Real.pi_pos
  have h0 : 0 < (90 - lat) * Real.pi / 180 := by
    have : 0 < 90 - lat := by linarith
    positivity
  have h3 : (90 - lat) * Real.pi / 180 < Real.pi := by
    rw [div_lt_iff₀ (by norm_num)]; nlinarith
  have hsin := Real.sin_pos_of_pos_of_lt_pi h0 h3
  have hsc := Real.sin_sq_add_cos_sq ((90 - lat) * Real.pi / 180)
  rw [codeU_interior eps _ (by nlinarith)]
  rw [show 1 - Real.cos ((90 - lat) * Real.pi / 180) ^ 2 = Real.sin ((90 - lat) * Real.pi / 180) ^ 2 by linarith]
  exact Real.sqrt_sq hsin.le

/-- a static field added to every month -/
def addStatic (h : Harm ℝ) (c s : ℕ → ℕ → ℝ) : Harm ℝ :=
  { h with clm := fun l m t => h.clm l m t + c l m, slm := fun l m t => h.slm l m t + s l m }

/-- C89: without a mean file a static field in the data has no effect on the maps -/
theorem static_no_effect (eps scalef cutoff : ℝ) (hsc : scalef ≠ 0) (o : Opts) (hL : 2 ≤ o.LMAX) (hM : o.order ≤ o.LMAX)
    (grace : Harm ℝ) (n : ℕ) (hn : 0 < n) (D : Data o grace n)
    (gia : Harm ℝ) (removed : List (Harm ℝ)) (C : ∀ h ∈ removed, Covers grace h)
    (ho : ∀ oc, o.ocean = some oc → 2 ≤ n ∧ oc.lmax = o.LMAX ∧ oc.mmax = o.order)
    (dfactor wt : ℕ → ℝ) (hw : weights cutoff o.RAD o.LMAX = some wt) (lons lats : List ℚ) (c s : ℕ → ℕ → ℝ) :
    spatialMaps eps scalef cutoff o (addStatic grace c s) none gia (removed.map .index) dfactor lons lats =
      spatialMaps eps scalef cutoff o grace none gia (removed.map .index) dfactor lons lats := by
  have D' : Data o (addStatic grace c s) n := ⟨D.lmax, D.mmax, D.nt, D.wf, D.months⟩
  have C' : ∀ h ∈ removed, Covers (addStatic grace c s) h := fun h hh => ⟨(C h hh).nt, (C h hh).wf, (C h hh).months, (C h hh).all⟩
  obtain ⟨m1, e1, l1, v1⟩ := spatialMaps_value eps scalef cutoff hsc o hL hM grace n D none (by simp) gia removed C ho
    dfactor wt hw lons lats
  obtain ⟨m2, e2, l2, v2⟩ := spatialMaps_value eps scalef cutoff hsc o hL hM (addStatic grace c s) n D' none (by simp) gia
    removed C' ho dfactor wt hw lons lats
  have hsig : ∀ b i, signal b o (addStatic grace c s) n none gia removed i = signal b o grace n none gia removed i := by
    intro b i
    have key : (fun l m => coef b (addStatic grace c s) i l m - static b (addStatic grace c s) n none l m) =
        fun l m => coef b grace i l m - static b grace n none l m := by
      funext l m
      have hn' : (n : ℝ) ≠ 0 := by positivity
      simp only [static, coef, addStatic]
      by_cases h : l ≤ grace.lmax ∧ m ≤ grace.mmax
      · simp only [h, and_self, if_true]
        cases b
        · simp only [Bool.false_eq_true, if_false, Finset.sum_add_distrib, Finset.sum_const, Finset.card_range, nsmul_eq_mul]
          field_simp; ring
        · simp only [if_true, Finset.sum_add_distrib, Finset.sum_const, Finset.card_range, nsmul_eq_mul]
          field_simp; ring
      · simp only [h, if_false]
    funext l m
    simp only [signal, key]
    rfl
  rw [e1, e2]
  congr 1
  apply List.ext_getElem?
  intro i
  by_cases hi : i < n
  · obtain ⟨A, a1, a2, a3, a4, a5⟩ := v1 i hi
    obtain ⟨B, b1, b2, b3, b4, b5⟩ := v2 i hi
    rw [a1, b1]
    congr 1
    have hd : B.data = A.data := by
      apply List.ext_getElem?
      intro j
      cases hj : lats[j]? with
      | none =>
        have hj' := List.getElem?_eq_none_iff.1 hj
        rw [List.getElem?_eq_none (by omega), List.getElem?_eq_none (by omega)]
      | some lat =>
        obtain ⟨r1, p1, p2, p3⟩ := a5 j lat hj
        obtain ⟨r2, q1, q2, q3⟩ := b5 j lat hj
        rw [p1, q1]
        congr 1
        apply List.ext_getElem?
        intro k
        cases hk : lons[k]? with
        | none =>
          have hk' := List.getElem?_eq_none_iff.1 hk
          rw [List.getElem?_eq_none (by omega), List.getElem?_eq_none (by omega)]
        | some lon => rw [p3 k lon hk, q3 k lon hk, hsig, hsig]
    have ht : B.time = A.time := b2.trans a2.symm
    have hm : B.month = A.month := b3.trans a3.symm
    cases A; cases B; simp_all
  · rw [List.getElem?_eq_none (by omega), List.getElem?_eq_none (by omega)]

/-- C89: a removed field compensated over the ocean carries no mass -/
theorem compensated_mass (oc h : Harm ℝ) (t : ℕ) (h0 : coef false oc 0 0 0 ≠ 0) :
    compensated false (some oc) h t 0 0 = 0 := by
  simp only [compensated]; field_simp; ring

/-- C89 (deviation): with any field to be removed given as a single data file (format ascii, netCDF4 or HDF5) the program
never makes a map: it asks the object for an attribute which no object has -/
theorem dataFile_fails (eps scalef cutoff : ℝ) (o : Opts) (grace : Harm ℝ) (meanFile : Option (Harm ℝ)) (gia : Harm ℝ)
    (pre post : List Source) (h : Harm ℝ) (dfactor : ℕ → ℝ) (lons lats : List ℚ) :
    ∃ e, spatialMaps eps scalef cutoff o grace meanFile gia (pre ++ .dataFile h :: post) dfactor lons lats = .error e := by
  have key : ∀ (a acc : Harm ℝ), ∃ e, removedSum o a acc (pre ++ .dataFile h :: post) = .error e := by
    intro a acc
    induction pre generalizing acc with
    | nil => exact ⟨.attributeError, rfl⟩
    | cons s pre ih =>
      rw [List.cons_append, removedSum]
      cases removeStep o a acc s with
      | error e => exact ⟨e, rfl⟩
      | ok acc' => exact ih acc'
  unfold spatialMaps
  cases weights cutoff o.RAD o.LMAX with
  | none => exact ⟨_, rfl⟩
  | some wt =>
    simp only
    cases anomaly grace meanFile with
    | error e => exact ⟨_, rfl⟩
    | ok a =>
      simp only
      cases filtered o a with
      | error e => exact ⟨_, rfl⟩
      | ok f =>
        simp only
        obtain ⟨e, he⟩ := key f (zerosLike f)
        rw [he]
        exact ⟨_, rfl⟩

/-- C89: a removed series without one of the months of the data ends the program: no month is mapped with a wrong date -/
theorem missing_month_fails (eps scalef cutoff : ℝ) (o : Opts) (hL : o.LMAX ≠ 0) (grace : Harm ℝ) (n : ℕ) (D : Data o grace n)
    (gia : Harm ℝ) (post : List Source) (h : Harm ℝ) (hm : ∃ g ∈ grace.month, g ∉ h.month) (dfactor wt : ℕ → ℝ)
    (hw : weights cutoff o.RAD o.LMAX = some wt) (lons lats : List ℚ) :
    ∃ months, spatialMaps eps scalef cutoff o grace none gia (.index h :: post) dfactor lons lats =
        .error (.harm (.ioError months)) ∧ ∀ g, g ∈ months ↔ g ∈ grace.month ∧ g ∉ h.month := by
  obtain ⟨a, a1, a2, A⟩ := anomaly_holds o grace n D none (by simp)
  obtain ⟨f, f1, f2, F⟩ := filtered_holds o hL a n _ _ _ A
  obtain ⟨check, c1, c2⟩ := subset_missing h grace.month hm
  refine ⟨check, ?_, c2⟩
  unfold spatialMaps
  rw [hw]; simp only
  rw [a1]; simp only
  rw [f1]; simp only
  rw [removedSum, removeStep]
  simp only [removedField]
  rw [F.month, c1]
  rfl

/-- C89 (deviation): with redistribution over the ocean a run over a single month always fails -/
theorem single_month_redistribution_fails (eps scalef cutoff : ℝ) (o : Opts) (hL : o.LMAX ≠ 0) (grace : Harm ℝ)
    (D : Data o grace 1) (gia oc : Harm ℝ) (ho : o.ocean = some oc) (post : List Source) (h : Harm ℝ) (C : Covers grace h)
    (dfactor wt : ℕ → ℝ) (hw : weights cutoff o.RAD o.LMAX = some wt) (lons lats : List ℚ) :
    spatialMaps eps scalef cutoff o grace none gia (.index h :: post) dfactor lons lats = .error .indexError := by
  obtain ⟨a, a1, a2, A⟩ := anomaly_holds o grace 1 D none (by simp)
  obtain ⟨f, f1, f2, F⟩ := filtered_holds o hL a 1 _ _ _ A
  have hlen : grace.month.length = 1 := by rw [D.wf.2, D.nt]; rfl
  have hq : grace.month.Nodup := D.months.imp fun h => ne_of_lt h
  have hn : h.month.Nodup := C.months.imp fun h => ne_of_lt h
  have hsub : ∃ s, subset h grace.month = .ok s ∧ s.nt = none := by
    have hc : (grace.month.filter fun m => m ∉ h.month).dedup = [] := by
      rw [List.dedup_eq_nil, List.filter_eq_nil_iff]
      intro m hm; simp [C.all m hm]
    have hl := hits_length h grace.month hn hq C.all
    unfold hits at hl
    unfold subset
    simp only [hc, ne_eq, not_true_eq_false, if_false]
    rw [if_neg (by omega), hlen]
    exact ⟨_, rfl, rfl⟩
  obtain ⟨s, s1, s2⟩ := hsub
  unfold spatialMaps
  rw [hw]; simp only
  rw [a1]; simp only
  rw [f1]; simp only
  rw [removedSum, removeStep]
  simp only [removedField]
  rw [F.month, s1, ho]
  simp only [lift, oceanStep, redistribute]
  rw [show (truncate s (some o.LMAX) 0 (some o.order)).nt = none from s2]

/-! ## formats of the removed files -/

/-- C89: one format is used for all files; with as many formats as files each file has its own -/
theorem formats_paired {A B : Type} (files : List A) (fmt : B) (formats : List B) :
    pairFormats files [fmt] = files.map (fun f => (f, fmt)) ∧
    (formats.length = files.length → pairFormats files formats = files.zip formats) ∧
    (formats ≠ [] → ((pairFormats files formats).map Prod.fst) = files) := by
  refine ⟨?_, ?_, ?_⟩
  · unfold pairFormats
    have h1 : ∀ k, (List.replicate k [fmt]).flatten = List.replicate k fmt := by
      intro k; induction k with
      | zero => rfl
      | succ k ih => rw [List.replicate_succ, List.flatten_cons, ih]; rfl
    have h2 : ∀ k, files.length ≤ k → files.zip (List.replicate k fmt) = files.map (fun f => (f, fmt)) := by
      intro k
      induction files generalizing k with
      | nil => intro _; rfl
      | cons f files ih =>
        intro hk
        rw [List.length_cons] at hk
        obtain ⟨k, rfl⟩ : ∃ j, k = j + 1 := ⟨k - 1, by omega⟩
        rw [List.replicate_succ, List.zip_cons_cons, ih k (by omega)]; rfl
    split
    · rw [h1]; exact h2 _ le_rfl
    · rename_i h
      exact h2 1 (by simpa using h)
  · intro h
    unfold pairFormats
    rw [if_neg (by omega)]
  · intro h
    unfold pairFormats
    have hp : 0 < formats.length := List.length_pos_iff.2 h
    split
    · apply List.map_fst_zip
      rw [List.length_flatten, List.map_replicate, List.sum_replicate, smul_eq_mul]
      exact Nat.le_mul_of_pos_right _ hp
    · apply List.map_fst_zip; omega

/-! ## grid -/

/-- C89: with a step that divides the range the edge grid runs from one end to the other -/
theorem closedAxis_spec (a d range : ℚ) (hd : 0 < d) (k : ℕ) (hk : range = k * d) (s : ℚ) :
    closedAxis a s range d = (List.range (k + 1)).map fun i : ℕ => a + i * s := by
  unfold closedAxis
  have : range / d = (k : ℤ) := by rw [hk]; push_cast; field_simp
  rw [this, Int.floor_intCast]
  congr 2

theorem arange_spec (a b h : ℚ) (hh : h ≠ 0) (k : ℕ) (hk : b - a = k * h) :
    arange a b h = (List.range k).map fun i : ℕ => a + i * h := by
  unfold arange
  have : (b - a) / h = ((k : ℤ) : ℚ) := by rw [hk]; push_cast; field_simp
  rw [this, Int.ceil_intCast]
  congr 2

/-- C89: the global grids.  For steps dividing the globe (`p` columns, `q` rows): edges from the western to the eastern meridian
and from pole to pole; centres of the `p × q` cells of the globe, from north to south, none of them a pole -/
theorem axes_spec (west dlon dlat : ℚ) (p q : ℕ) (h1 : 0 < dlon) (h2 : 0 < dlat) (hp : 360 = p * dlon) (hq : 180 = q * dlat) :
    axes west dlon dlat .edges = ((List.range (p + 1)).map (fun i : ℕ => west + i * dlon),
      (List.range (q + 1)).map fun i : ℕ => 90 - i * dlat) ∧
    axes west dlon dlat .centres = ((List.range p).map (fun i : ℕ => west + (i + 1 / 2) * dlon),
      (List.range q).map fun i : ℕ => 90 - (i + 1 / 2) * dlat) ∧
    (∀ lat ∈ (axes west dlon dlat .centres).2, -90 < lat ∧ lat < 90) ∧
    ((axes west dlon dlat .edges).2.head? = some 90 ∧ (axes west dlon dlat .edges).2.getLast? = some (-90)) := by
  have e1 : axes west dlon dlat .edges = ((List.range (p + 1)).map (fun i : ℕ => west + i * dlon),
      (List.range (q + 1)).map fun i : ℕ => 90 - i * dlat) := by
    simp only [axes]
    rw [closedAxis_spec west dlon 360 h1 p hp, closedAxis_spec 90 dlat 180 h2 q hq]
    congr 1
    apply List.map_congr_left; intro i _; ring
  have e2 : axes west dlon dlat .centres = ((List.range p).map (fun i : ℕ => west + (i + 1 / 2) * dlon),
      (List.range q).map fun i : ℕ => 90 - (i + 1 / 2) * dlat) := by
    simp only [axes]
    rw [arange_spec _ _ dlon h1.ne' p (by rw [← hp]; ring), arange_spec _ _ (-dlat) (by simpa using h2.ne') q (by linarith)]
    congr 1 <;> (apply List.map_congr_left; intro i _; ring)
  refine ⟨e1, e2, ?_, ?_, ?_⟩
  · rw [e2]
    intro lat hlat
    obtain ⟨i, hi, rfl⟩ := List.mem_map.1 hlat
    have hi := List.mem_range.1 hi
    have hi' : (i : ℚ) + 1 ≤ q := by exact_mod_cast hi
    have h0 : (0 : ℚ) ≤ i := Nat.cast_nonneg i
    constructor
    · nlinarith
    · nlinarith
  · rw [e1]
    simp [List.range_succ_eq_map]
  · rw [e1]
    simp only [List.range_succ, List.map_append, List.map_cons, List.map_nil, List.getLast?_append, List.getLast?_singleton]
    simp only [Option.some_or, Option.some.injEq]
    linarith

/-! ## file names -/

theorem num_inj (w a b : ℕ) (h : List.replicate (w - (SpatialIO.natDigits a).length) '0' ++ (SpatialIO.natDigits a).map SLR.dchar =
    List.replicate (w - (SpatialIO.natDigits b).length) '0' ++ (SpatialIO.natDigits b).map SLR.dchar) : a = b := by
  have h0 : ('0' : Char) = SLR.dchar 0 := by decide
  have hinj : Function.Injective SLR.dchar := by decide
  rw [h0, ← List.map_replicate (f := SLR.dchar), ← List.map_replicate (f := SLR.dchar), ← List.map_append,
    ← List.map_append] at h
  have h2 := List.map_injective_iff.2 hinj h
  have hd : ∀ (k : ℕ) (ds : List (Fin 10)), SLR.decimal (List.replicate k 0 ++ ds) = SLR.decimal ds := by
    intro k ds
    induction ds using List.reverseRecOn with
    | nil =>
      rw [List.append_nil]
      induction k with
      | zero => rfl
      | succ k ih => rw [List.replicate_succ', SpatialIO.decimal_snoc, ih]; simp [SLR.decimal]
    | append_singleton ds d ih => rw [← List.append_assoc, SpatialIO.decimal_snoc, SpatialIO.decimal_snoc, ih]
  have h3 := congrArg SLR.decimal h2
  rw [hd, hd, SpatialIO.decimal_natDigits, SpatialIO.decimal_natDigits] at h3
  exact h3

/-- C89: the maps of different months are written to different files -/
theorem fileName_injective (pre units gw suffix : List Char) (o : Opts) :
    Function.Injective (fileName pre units gw suffix o) := by
  intro a b h
  unfold fileName at h
  simp only [List.append_assoc, List.append_cancel_left_eq, List.cons_append, List.cons.injEq, true_and] at h
  rw [← List.append_assoc, ← List.append_assoc] at h
  exact num_inj 3 a b (List.append_cancel_right h)

/-! ## combine_harmonics -/

/-- the coefficients of the maps of `combine_harmonics` before the filter: the input minus the mean file -/
noncomputable def reduced (b : Bool) (h : Harm ℝ) (meanFile : Option (Harm ℝ)) (t l m : ℕ) : ℝ :=
  coef b h t l m - (match meanFile with | some f => coef b f 0 l m | none => 0)

/-- the same with the total mass compensated by a uniform layer of water over the ocean -/
noncomputable def reducedOcean (b : Bool) (ocean : Option (Harm ℝ)) (h : Harm ℝ) (meanFile : Option (Harm ℝ)) (t l m : ℕ) : ℝ :=
  match ocean with
  | none => reduced b h meanFile t l m
  | some oc => reduced b h meanFile t l m - reduced false h meanFile t 0 0 / coef false oc 0 0 0 * coef b oc 0 l m

/-- C89: `combine_harmonics` makes one map per date of the input (one for a field without dates): the series of the degrees to
`LMAX` of the input minus the mean file, filtered, smoothed and converted.  The maximum order must be `LMAX`, and a mean file
needs an input which is not an index -/
theorem combine_value (eps scalef cutoff : ℝ) (hsc : scalef ≠ 0) (LMAX : ℕ) (hL : 2 ≤ LMAX) (MMAX : Option ℕ)
    (hM : MMAX.getD LMAX = LMAX) (RAD : ℝ) (destripe indexed : Bool) (ocean meanFile : Option (Harm ℝ))
    (hmf : ∀ f, meanFile = some f → f.nt = none ∧ indexed = false)
    (ho : ∀ oc, ocean = some oc → oc.lmax = LMAX ∧ oc.mmax = LMAX)
    (dfactor wt : ℕ → ℝ) (hw : weights cutoff RAD LMAX = some wt) (h : Harm ℝ) (wf : h.WF) (lons lats : List ℚ) :
    ∃ maps, combine eps scalef cutoff LMAX MMAX RAD destripe indexed ocean meanFile dfactor h lons lats = .ok maps ∧
      maps.length = h.nt.getD 1 ∧
      ∀ t < h.nt.getD 1, maps[t]? = some (lats.map fun lat : ℚ => lons.map fun lon : ℚ =>
        series 0 LMAX LMAX (fun l => dfactor l * wt l)
          (filt ⟨0, LMAX, LMAX, RAD, destripe, ocean⟩ (reducedOcean false ocean h meanFile t))
          (filt ⟨0, LMAX, LMAX, RAD, destripe, ocean⟩ (reducedOcean true ocean h meanFile t))
          (Real.cos ((90 - (lat : ℝ)) * Real.pi / 180))
          (codeU eps (Real.cos ((90 - (lat : ℝ)) * Real.pi / 180))) ((lon : ℝ) * Real.pi / 180)) := by
  set n := h.nt.getD 1 with hn
  set o : Opts := ⟨0, LMAX, LMAX, RAD, destripe, ocean⟩ with hodef
  have hord : o.order = LMAX := by simp [Opts.order, hodef]
  obtain ⟨t1, t2, t3, t4, t5, t6⟩ := truncate_spec h LMAX 0 LMAX (by omega)
  set g := expandDims (truncate h (some LMAX) 0 (some LMAX)) with hg
  have gl : g.lmax = LMAX := by rw [hg]; unfold expandDims; split <;> exact t1
  have gm : g.mmax = LMAX := by rw [hg]; unfold expandDims; split <;> exact t2
  have gt : g.time = h.time := by rw [hg]; unfold expandDims; split <;> exact t4
  have gmo : g.month = h.month := by rw [hg]; unfold expandDims; split <;> exact t5
  have gn : g.nt = some n := by
    rw [hg, hn]
    unfold expandDims
    split
    · rename_i h0; rw [t3] at h0; simp [h0]
    · rename_i k h0; rw [h0]; rw [t3] at h0; simp [h0]
  have gv : ∀ b t l m, val b g t l m = val b (truncate h (some LMAX) 0 (some LMAX)) t l m := by
    intro b t l m; rw [hg]; unfold expandDims; split <;> rfl
  have G : Holds g LMAX LMAX n h.time h.month (fun b t l m => coef b h t l m) := by
    refine ⟨gl, gm, Or.inl gn, gt, gmo, ?_⟩
    intro b t l m ht hml hl hm
    obtain ⟨u1, u2⟩ := t6 l m t
    rw [gv, coef_val]
    unfold val
    cases b
    · simp only [Bool.false_eq_true, if_false, u1, Nat.zero_le, hl, hm, true_and]
    · simp only [if_true, u2, Nat.zero_le, hl, hm, true_and]
  have wg : g.WF := ⟨by rw [gt, gn]; exact wf.1, by rw [gmo, gn]; exact wf.2⟩
  -- mean file
  have HM : ∃ q, combineMean indexed meanFile g = .ok q ∧ q.nt = some n ∧
      Holds q LMAX LMAX n h.time h.month (fun b t l m => reduced b h meanFile t l m) := by
    cases hmf' : meanFile with
    | none => exact ⟨g, rfl, gn, G.congr (by intros; simp [reduced])⟩
    | some f =>
      obtain ⟨f1, f2⟩ := hmf f hmf'
      obtain ⟨r, e1, e2, e3, e4, e5, e6, e7⟩ := windowed_val (· - ·) (by simp) g f ⟨wg, Or.inr (Or.inl f1)⟩
      refine ⟨r, ?_, e4.trans gn, e2.trans gl, e3.trans gm, Or.inl (e4.trans gn), e5.trans gt, e6.trans gmo, ?_⟩
      · simp only [combineMean, f2, Bool.false_eq_true, if_false, subtract]
        rw [e1]; rfl
      · intro b t l m ht hml hl hm
        rw [e7 b l m t (by rw [gn]; exact ht) (by omega) (by omega), G.vals b t l m ht hml hl hm]
        unfold partnerDate
        rw [if_neg (by rw [f1, gn]; simp)]
        rfl
  obtain ⟨q, q1, q2, Q⟩ := HM
  have HO : ∃ r, oceanStep LMAX LMAX ocean q = .ok r ∧ r.nt = some n ∧
      Holds r LMAX LMAX n h.time h.month (fun b t l m => reducedOcean b ocean h meanFile t l m) := by
    unfold oceanStep
    cases hoc : ocean with
    | none => exact ⟨q, rfl, q2, Q⟩
    | some oc =>
      obtain ⟨o2, o3⟩ := ho oc hoc
      obtain ⟨r, r1, r2, r3⟩ := redistribute_holds LMAX LMAX oc q n n q2 _ _ _ Q
      refine ⟨r, r1, r2.trans q2, r3.congr ?_⟩
      intro b t l m ht hml hl hm
      simp only [reducedOcean, coef_val _ oc, o2, o3, hl, hm, Nat.zero_le, and_self, if_true, val]
      simp
  obtain ⟨r, r1, r2, R⟩ := HO
  obtain ⟨f, f1, f2, F⟩ := filtered_holds o (by show LMAX ≠ 0; omega) r n h.time h.month _
    (by rw [hord]; exact R)
  rw [hord] at F
  have F : Holds f LMAX LMAX n h.time h.month _ := F
  have fn : f.nt = some n := f2.trans r2
  have wf' : f.WF := ⟨by rw [F.time, fn]; exact wf.1, by rw [F.month, fn]; exact wf.2⟩
  have key := mapM_ok (combineDate eps scalef LMAX (factorList LMAX dfactor wt) f lons lats)
    (fun t => lats.map fun lat : ℚ => lons.map fun lon : ℚ =>
      series 0 LMAX LMAX (fun l => dfactor l * wt l) (filt o (reducedOcean false ocean h meanFile t))
        (filt o (reducedOcean true ocean h meanFile t))
        (Real.cos ((90 - (lat : ℝ)) * Real.pi / 180))
        (codeU eps (Real.cos ((90 - (lat : ℝ)) * Real.pi / 180))) ((lon : ℝ) * Real.pi / 180)) (List.range n) (by
    intro t ht
    have ht := List.mem_range.1 ht
    unfold combineDate
    rw [index_ok f n t fn wf' ht]
    simp only
    have dl : (dateField f t).lmax = LMAX := F.lmax
    have dm : (dateField f t).mmax = LMAX := F.mmax
    obtain ⟨c, c1, c2, c3, c4, c5, c6, c7⟩ := convolve_spec (dateField f t) ⟨rfl, rfl⟩ (factorList LMAX dfactor wt)
      (by rw [dl]; simp [factorList])
    rw [c1]
    simp only
    apply synthesis_value eps scalef hsc 0 LMAX LMAX hL le_rfl c (by rw [c2, dl]) (by rw [c3, dm])
    intro l m hml hl hm
    obtain ⟨z1, z2⟩ := c7 l m 0 (by rw [dl]; exact hl) (by show 0 < 1; omega)
    rw [factorList_get] at z1 z2
    have e1 := F.vals false t l m ht hml hl hm
    have e2 := F.vals true t l m ht hml hl hm
    simp only [val, Bool.false_eq_true, if_false, if_true] at e1 e2
    rw [z1, z2]
    constructor
    · show f.clm l m t * _ = _
      rw [e1]
    · show f.slm l m t * _ = _
      rw [e2])
  have run : combine eps scalef cutoff LMAX MMAX RAD destripe indexed ocean meanFile dfactor h lons lats =
      (List.range n).mapM (combineDate eps scalef LMAX (factorList LMAX dfactor wt) f lons lats) := by
    unfold combine
    rw [hM, ← hg, q1]
    simp only
    rw [r1]
    simp only
    rw [show filtered ⟨0, LMAX, LMAX, RAD, destripe, ocean⟩ r = .ok f from f1]
    simp only
    rw [hw]
    simp only
    rw [if_neg (by omega), F.time, wf.1, ← hn]
  refine ⟨_, run.trans key, by simp, ?_⟩
  intro t ht
  rw [List.getElem?_map, List.getElem?_range ht]
  rfl

theorem windowed_keeps (op : ℝ → ℝ → ℝ) (x f y : Harm ℝ) (h : Harmonics.windowed op x f = .ok y) :
    y.mmax = x.mmax ∧ y.time = x.time := by
  unfold Harmonics.windowed at h
  simp only at h
  split at h
  · simp only [Except.ok.injEq] at h; subst h; exact ⟨rfl, rfl⟩
  · exact absurd h (by simp)
  · split at h
    · simp only [Except.ok.injEq] at h; subst h; exact ⟨rfl, rfl⟩
    · exact absurd h (by simp)
  · split at h
    · simp only [Except.ok.injEq] at h; subst h; exact ⟨rfl, rfl⟩
    · split at h
      · simp only [Except.ok.injEq] at h; subst h; exact ⟨rfl, rfl⟩
      · exact absurd h (by simp)

/-- C89 (deviation): with a maximum order below the maximum degree `combine_harmonics` never returns a map: the summation
reads the orders up to the maximum degree -/
theorem combine_order_fails (eps scalef cutoff : ℝ) (LMAX M : ℕ) (h0 : M ≠ 0) (hM : M < LMAX) (RAD : ℝ)
    (destripe indexed : Bool) (ocean meanFile : Option (Harm ℝ)) (dfactor : ℕ → ℝ) (h : Harm ℝ) (wf : h.WF)
    (hn : h.nt ≠ some 0) (lons lats : List ℚ) :
    ∃ e, combine eps scalef cutoff LMAX (some M) RAD destripe indexed ocean meanFile dfactor h lons lats = .error e := by
  obtain ⟨t1, t2, t3, t4, t5, -⟩ := truncate_spec h LMAX 0 M h0
  have ht : h.time ≠ [] := by
    intro he
    have := wf.1
    rw [he] at this
    cases h' : h.nt with
    | none => rw [h'] at this; simp at this
    | some k => rw [h'] at this hn; simp at this; exact hn (by rw [← this])
  -- every stage keeps the maximum order and the dates
  have keep1 : ∀ x y : Harm ℝ, combineMean indexed meanFile x = .ok y → y.mmax = x.mmax ∧ y.time = x.time := by
    intro x y hxy
    unfold combineMean at hxy
    cases meanFile with
    | none => simp only [Except.ok.injEq] at hxy; subst hxy; exact ⟨rfl, rfl⟩
    | some f =>
      simp only at hxy
      split at hxy
      · exact absurd hxy (by simp)
      · cases hs : subtract x f with
        | error e => rw [hs] at hxy; exact absurd hxy (by simp [lift])
        | ok z =>
          rw [hs] at hxy
          simp only [lift, Except.ok.injEq] at hxy
          subst hxy
          exact windowed_keeps _ _ _ _ hs
  have keep2 : ∀ x y : Harm ℝ, oceanStep LMAX M ocean x = .ok y → y.mmax = x.mmax ∧ y.time = x.time := by
    intro x y hxy
    unfold oceanStep at hxy
    split at hxy
    · unfold redistribute at hxy
      split at hxy
      · exact absurd hxy (by simp)
      · simp only [Except.ok.injEq] at hxy; subst hxy; exact ⟨rfl, rfl⟩
    · simp only [Except.ok.injEq] at hxy; subst hxy; exact ⟨rfl, rfl⟩
  have keep3 : ∀ (o : Opts) (x y : Harm ℝ), filtered o x = .ok y → y.mmax = x.mmax ∧ y.time = x.time := by
    intro o x y hxy
    unfold filtered at hxy
    split at hxy
    · unfold destripeHarm at hxy
      split at hxy
      · exact absurd hxy (by simp)
      · simp only [Except.ok.injEq] at hxy; subst hxy; exact ⟨rfl, rfl⟩
    · simp only [Except.ok.injEq] at hxy; subst hxy; exact ⟨rfl, rfl⟩
  have g1 : (expandDims (truncate h (some LMAX) 0 (some M))).mmax = M := by unfold expandDims; split <;> exact t2
  have g2 : (expandDims (truncate h (some LMAX) 0 (some M))).time = h.time := by unfold expandDims; split <;> exact t4
  unfold combine
  rw [Option.getD_some]
  cases e1 : combineMean indexed meanFile (expandDims (truncate h (some LMAX) 0 (some M))) with
  | error e => exact ⟨e, rfl⟩
  | ok x =>
    simp only
    cases e2 : oceanStep LMAX M ocean x with
    | error e => exact ⟨e, rfl⟩
    | ok y =>
      simp only
      cases e3 : filtered ⟨0, LMAX, M, RAD, destripe, ocean⟩ y with
      | error e => exact ⟨e, rfl⟩
      | ok z =>
        simp only
        have zm : z.mmax = M := by rw [(keep3 _ _ _ e3).1, (keep2 _ _ e2).1, (keep1 _ _ e1).1, g1]
        have zt : z.time = h.time := by rw [(keep3 _ _ _ e3).2, (keep2 _ _ e2).2, (keep1 _ _ e1).2, g2]
        cases weights cutoff RAD LMAX with
        | none => exact ⟨_, rfl⟩
        | some wt =>
          simp only
          split
          · exact ⟨_, rfl⟩
          · obtain ⟨x0, xs, hx⟩ : ∃ x0 xs, List.range z.time.length = x0 :: xs := by
              cases hr : List.range z.time.length with
              | nil =>
                rw [zt, List.range_eq_nil, List.length_eq_zero_iff] at hr
                exact absurd hr ht
              | cons a as => exact ⟨a, as, rfl⟩
            rw [hx, List.mapM_cons]
            have hbad : ∃ e, combineDate eps scalef LMAX (factorList LMAX dfactor wt) z lons lats x0 = .error e := by
              unfold combineDate
              cases hi : index z x0 with
              | error e => exact ⟨_, rfl⟩
              | ok y0 =>
                simp only
                have y0m : y0.mmax = z.mmax := by
                  unfold index at hi
                  split at hi
                  · exact absurd hi (by simp)
                  · split at hi
                    · split at hi
                      · simp only [Except.ok.injEq] at hi; subst hi; rfl
                      · exact absurd hi (by simp)
                    · exact absurd hi (by simp)
                cases hc : convolve y0 (factorList LMAX dfactor wt) with
                | error e => exact ⟨_, rfl⟩
                | ok y1 =>
                  simp only
                  have y1m : y1.mmax = y0.mmax := by
                    unfold convolve at hc
                    split at hc
                    · exact absurd hc (by simp)
                    · simp only [Except.ok.injEq] at hc; subst hc; rfl
                  unfold synthesis
                  split
                  · exact ⟨_, rfl⟩
                  · rw [if_pos (by omega)]; exact ⟨_, rfl⟩
            obtain ⟨e, he⟩ := hbad
            rw [he]
            exact ⟨e, rfl⟩

/-- C89 (deviation): a mean file with an index of input files always fails -/
theorem combine_mean_index_fails (eps scalef cutoff : ℝ) (LMAX : ℕ) (MMAX : Option ℕ) (RAD : ℝ) (destripe : Bool)
    (ocean : Option (Harm ℝ)) (f : Harm ℝ) (dfactor : ℕ → ℝ) (h : Harm ℝ) (lons lats : List ℚ) :
    combine eps scalef cutoff LMAX MMAX RAD destripe true ocean (some f) dfactor h lons lats = .error .attributeError := rfl

/-! ## the hypotheses can be met -/

/-- three months of fields to degree 2, and a series to remove with four months -/
noncomputable def sampleGrace : Harm ℝ :=
  { lmax := 2, mmax := 2, nt := some 3, clm := fun l m t => l + m + t, slm := fun l m t => l * m * t
    time := [2003, 2004, 2005], month := [13, 25, 37] }

noncomputable def sampleRemoved : Harm ℝ :=
  { lmax := 1, mmax := 1, nt := some 4, clm := fun l m t => l + t, slm := fun _ m t => m * t
    time := [2003, 2003.5, 2004, 2005], month := [13, 19, 25, 37] }

noncomputable def sampleOpts : Opts := ⟨1, 2, 0, 0, true, some sampleGrace⟩

example : 2 ≤ sampleOpts.LMAX ∧ sampleOpts.order ≤ sampleOpts.LMAX ∧ Data sampleOpts sampleGrace 3 ∧
    Covers sampleGrace sampleRemoved ∧ weights 1e-10 sampleOpts.RAD sampleOpts.LMAX = some (fun _ => 1) ∧
    (∀ oc, sampleOpts.ocean = some oc → 2 ≤ 3 ∧ oc.lmax = sampleOpts.LMAX ∧ oc.mmax = sampleOpts.order) := by
  refine ⟨le_rfl, le_rfl, ⟨rfl, rfl, rfl, ⟨rfl, rfl⟩, by decide⟩, ⟨⟨4, rfl⟩, ⟨rfl, rfl⟩, by decide, by decide⟩, ?_, ?_⟩
  · simp [weights, sampleOpts]
  · intro oc hoc
    obtain rfl : sampleGrace = oc := by simpa [sampleOpts] using hoc
    exact ⟨by norm_num, rfl, rfl⟩

/-- the removed fields of the second month are those of its month, not of its position -/
example : signal false ⟨0, 2, 2, 0, false, none⟩ sampleGrace 3 none { sampleGrace with clm := fun _ _ _ => 0 } [sampleRemoved] 1 1 0
    = (1 + 0 + 1 - (1 + 2 + 3) / 3) - (1 + 2) := by
  have : sampleRemoved.month.idxOf (sampleGrace.month.getD 1 0) = 2 := by decide
  simp only [signal, filt, Bool.false_eq_true, if_false, compensated, List.map_cons, List.map_nil, this]
  simp [coef, static, sampleGrace, sampleRemoved, Finset.sum_range_succ]
  norm_num

example : (360 : ℚ) = (720 : ℕ) * (1 / 2) ∧ (180 : ℚ) = (360 : ℕ) * (1 / 2) := by norm_num

end Verif.Maps
