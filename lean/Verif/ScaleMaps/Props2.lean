import Verif.ScaleMaps.Props

/-!
# C95: departures of `scale_grace_maps`, names and magnitudes
-/
namespace Verif.ScaleMaps
open Verif.Harmonics Verif.Maps Verif.Spatial Verif.SpatialError

/-- C95 (departure): the minimum degree has no effect on the monthly maps and their leakage errors: two runs that differ only in
it give the same first two maps -/
theorem minimum_degree_ignored (eps scalef cutoff : ℝ) (erf : ℝ → ℝ) (tppf : ℝ → ℝ → ℝ) (fmt : ℝ → ℝ) (title reference : String)
    (nm : Names) (r : Run) (l l' : ℕ) (grace : Harm ℝ) (meanFile : Option (Harm ℝ)) (gia : Harm ℝ) (dfactor : ℕ → ℝ)
    (scale : ScaleFile) (fs fs1 fs2 : List Char → Option CacheFile) (o1 o2 : List Out)
    (h1 : scaleMaps eps scalef cutoff erf tppf fmt title reference nm { r with o := { r.o with LMIN := l } } grace meanFile gia []
      dfactor scale fs = .ok (fs1, o1))
    (h2 : scaleMaps eps scalef cutoff erf tppf fmt title reference nm { r with o := { r.o with LMIN := l' } } grace meanFile gia []
      dfactor scale fs = .ok (fs2, o2)) : o1.take 2 = o2.take 2 := by
  unfold scaleMaps at h1 h2
  cases hw : weights cutoff r.o.RAD r.o.LMAX with
  | none =>
    have hw' : weights cutoff { r with o := { r.o with LMIN := l } }.o.RAD { r with o := { r.o with LMIN := l } }.o.LMAX = none := hw
    rw [hw'] at h1; cases h1
  | some wt =>
    have w1 : weights cutoff { r with o := { r.o with LMIN := l } }.o.RAD { r with o := { r.o with LMIN := l } }.o.LMAX = some wt := hw
    have w2 : weights cutoff { r with o := { r.o with LMIN := l' } }.o.RAD { r with o := { r.o with LMIN := l' } }.o.LMAX = some wt := hw
    rw [w1] at h1
    rw [w2] at h2
    simp only at h1 h2
    cases hk : factorsOf scale with
    | error e => rw [hk] at h1; cases h1
    | ok k =>
      rw [hk] at h1 h2
      simp only at h1 h2
      cases ha : lift (anomaly grace meanFile) with
      | error e => rw [ha] at h1; cases h1
      | ok a =>
        rw [ha] at h1 h2
        simp only at h1 h2
        cases hf : lift (filtered r.o a) with
        | error e =>
          have hf1 : lift (filtered { r with o := { r.o with LMIN := l } }.o a) = .error e := hf
          rw [hf1] at h1; cases h1
        | ok f =>
          have hf1 : lift (filtered { r with o := { r.o with LMIN := l } }.o a) = .ok f := hf
          have hf2 : lift (filtered { r with o := { r.o with LMIN := l' } }.o a) = .ok f := hf
          rw [hf1] at h1
          rw [hf2] at h2
          simp only [List.map_nil, removedSum, lift, ne_eq, not_true_eq_false, if_false] at h1 h2
          cases h0 : f.month.head? with
          | none => rw [h0] at h1; cases h1
          | some m0 =>
            cases h9 : f.month.getLast? with
            | none => rw [h0, h9] at h1; cases h1
            | some m1 =>
              rw [h0, h9] at h1 h2
              simp only at h1 h2
              split at h1
              · cases h1
              · split at h1
                · cases h1
                · rename_i q1
                  split at h2
                  · cases h2
                  · split at h2
                    · cases h2
                    · rename_i q2
                      cases h1; cases h2
                      unfold finish at q1 q2
                      split at q1
                      · cases q1
                      · rename_i hs
                        rw [if_neg hs] at q2
                        cases hm : lift ((List.range f.month.length).mapM (monthMap eps scalef { r.o with LMIN := 0 }
                            (factorList r.o.LMAX dfactor wt) f (giaSeries gia f) (zerosLike f) k.lon k.lat)) with
                        | error e =>
                          have hm1 : lift ((List.range f.month.length).mapM (monthMap eps scalef
                            { { r with o := { r.o with LMIN := l } }.o with LMIN := 0 }
                            (factorList { r with o := { r.o with LMIN := l } }.o.LMAX dfactor wt) f (giaSeries gia f)
                            (zerosLike f) k.lon k.lat)) = .error e := hm
                          rw [hm1] at q1; cases q1
                        | ok maps =>
                          have hm1 : lift ((List.range f.month.length).mapM (monthMap eps scalef
                            { { r with o := { r.o with LMIN := l } }.o with LMIN := 0 }
                            (factorList { r with o := { r.o with LMIN := l } }.o.LMAX dfactor wt) f (giaSeries gia f)
                            (zerosLike f) k.lon k.lat)) = .ok maps := hm
                          have hm2 : lift ((List.range f.month.length).mapM (monthMap eps scalef
                            { { r with o := { r.o with LMIN := l' } }.o with LMIN := 0 }
                            (factorList { r with o := { r.o with LMIN := l' } }.o.LMAX dfactor wt) f (giaSeries gia f)
                            (zerosLike f) k.lon k.lat)) = .ok maps := hm
                          rw [hm1] at q1
                          rw [hm2] at q2
                          simp only at q1 q2
                          split at q1
                          · cases q1
                          · split at q2
                            · cases q2
                            · cases q1; cases q2; rfl

/-- C95 (departure): with fields to be removed the program never succeeds -/
theorem removed_fails (eps scalef cutoff : ℝ) (erf : ℝ → ℝ) (tppf : ℝ → ℝ → ℝ) (fmt : ℝ → ℝ) (title reference : String)
    (nm : Names) (r : Run) (grace : Harm ℝ) (meanFile : Option (Harm ℝ)) (gia : Harm ℝ) (removed : List (Harm ℝ))
    (hr : removed ≠ []) (dfactor : ℕ → ℝ) (scale : ScaleFile) (fs : List Char → Option CacheFile) :
    ∃ e, scaleMaps eps scalef cutoff erf tppf fmt title reference nm r grace meanFile gia removed dfactor scale fs = .error e := by
  unfold scaleMaps
  split
  · exact ⟨_, rfl⟩
  · split
    · exact ⟨_, rfl⟩
    · split
      · exact ⟨_, rfl⟩
      · split
        · exact ⟨_, rfl⟩
        · split
          · exact ⟨_, rfl⟩
          · rw [if_pos hr]; exact ⟨_, rfl⟩

/-- a line of a text file is never read -/
theorem readRow_fails (row : List ℚ) : ∃ e, readRow defaultColumns row = .error e := by
  unfold readRow
  split
  · split
    · exact ⟨_, rfl⟩
    · split <;> exact ⟨_, rfl⟩
  · exact ⟨_, rfl⟩

/-- C95 (departure): no text file of scaling factors can be used, not even one written by the program itself; when it has a
line, reading it already fails (there is no column `data`) -/
theorem text_fails (eps scalef cutoff : ℝ) (erf : ℝ → ℝ) (tppf : ℝ → ℝ → ℝ) (fmt : ℝ → ℝ) (title reference : String)
    (nm : Names) (r : Run) (grace : Harm ℝ) (meanFile : Option (Harm ℝ)) (gia : Harm ℝ) (removed : List (Harm ℝ))
    (dfactor : ℕ → ℝ) (rows : List (List ℚ)) (fs : List Char → Option CacheFile) :
    (∃ e, scaleMaps eps scalef cutoff erf tppf fmt title reference nm r grace meanFile gia removed dfactor (.text rows) fs =
      .error e) ∧
    (rows ≠ [] → (∃ e, readRows defaultColumns rows = .error e) ∧
      ((∀ row ∈ rows, row.length = 5) → readRows defaultColumns rows = .error .keyError)) := by
  constructor
  · unfold scaleMaps
    split
    · exact ⟨_, rfl⟩
    · have : ∃ e, factorsOf (.text rows) = .error e := by
        simp only [factorsOf]
        split <;> exact ⟨_, rfl⟩
      obtain ⟨e, he⟩ := this
      rw [he]
      exact ⟨_, rfl⟩
  · intro h
    cases rows with
    | nil => exact absurd rfl h
    | cons row rest =>
      obtain ⟨e, he⟩ := readRow_fails row
      refine ⟨⟨e, by rw [readRows, he]⟩, fun h5 => ?_⟩
      have hl := h5 row List.mem_cons_self
      match row, hl with
      | [a, b, c, d, e], _ =>
        have : readRow defaultColumns [a, b, c, d, e] = .error .keyError := by
          simp [readRow, rowOf, defaultColumns]
        rw [readRows, this]

/-- every line that the program writes has five numbers, and it writes one for every valid cell -/
theorem written_rows (fmt : ℝ → ℚ) (fill : Option (Val ℝ)) (x : Factors) : (∀ row ∈ writeRows fmt fill x, row.length = 5) ∧
    ∀ i < x.data.rows, ∀ j < x.data.cols, x.mask i j = false → (∀ f, fill = some f → x.data.val i j ≠ f) → writeRows fmt fill x ≠ [] := by
  constructor
  · intro row h
    unfold writeRows at h
    simp only [List.mem_flatMap, List.mem_map] at h
    obtain ⟨i, -, j, -, rfl⟩ := h
    rfl
  · intro i hi j hj hm hf he
    unfold writeRows at he
    rw [List.flatMap_eq_nil_iff] at he
    have := he i (List.mem_range.2 hi)
    rw [List.map_eq_nil_iff, List.filter_eq_nil_iff] at this
    apply this j (List.mem_range.2 hj)
    rw [hm]
    cases fill with
    | none => rfl
    | some f =>
      have hv : veq (x.data.val i j) f = false := by
        cases hd : x.data.val i j with
        | none => rfl
        | some y =>
          have := hf f rfl
          rw [hd] at this
          rw [Bool.eq_false_iff]
          intro h
          exact this ((veq_some y f).1 h).symm
      simp [hv]

/-- C95 (departure): on a grid with as many latitudes as longitudes the factors are transposed but their errors and magnitudes
are not -/
theorem square_exchanged (f : FactorFile) (hq : f.lat.length = f.lon.length)
    (hk : f.kfactor.rows = f.lat.length ∧ f.kfactor.cols = f.lon.length)
    (he : f.error.rows = f.lat.length ∧ f.error.cols = f.lon.length)
    (hp : f.power.rows = f.lat.length ∧ f.power.cols = f.lon.length) :
    ∃ k, readFactors f = .ok k ∧ ∀ i j x, f.kfactor.val j i = some x → f.fill ≠ some (some x) →
      k.data.val i j = some x ∧ k.error.val i j = f.error.val i j ∧ k.magnitude.val i j = f.power.val i j := by
  unfold readFactors
  rw [if_pos (by rw [hk.1, hq])]
  simp only
  unfold updateFactors
  cases hfill : f.fill with
  | none => exact ⟨_, rfl, fun i j x hx _ => ⟨hx, rfl, rfl⟩⟩
  | some v =>
    simp only
    have hs : sameShape f.kfactor.T f.error ∧ sameShape f.kfactor.T f.power := by
      refine ⟨⟨?_, ?_⟩, ?_, ?_⟩ <;> simp [Arr2.T, hk.1, hk.2, he.1, he.2, hp.1, hp.2, hq]
    rw [if_pos hs]
    refine ⟨_, rfl, fun i j x hx hv => ?_⟩
    have e : veq (f.kfactor.T.val i j) v = false := by
      rw [show f.kfactor.T.val i j = some x from hx, Bool.eq_false_iff]
      intro h
      exact hv (by rw [(veq_some x v).1 h])
    have e2 : isnan (f.kfactor.T.val i j) = false := by
      rw [show f.kfactor.T.val i j = some x from hx]; rfl
    simp only [e, e2, Bool.or_self, Bool.false_eq_true, if_false]
    exact ⟨hx, trivial, trivial⟩

/-- C95 (departure): a file with a fill value whose arrays are longitudes by latitudes cannot be read unless the grid is
square: the transposed factors no longer have the shape of the errors -/
theorem lonlat_fails (f : FactorFile) (v : Val ℝ) (hv : f.fill = some v) (hq : f.lat.length ≠ f.lon.length)
    (hk : f.kfactor.rows = f.lon.length ∧ f.kfactor.cols = f.lat.length) (he : f.error.rows = f.lon.length) :
    readFactors f = .error .indexError := by
  unfold readFactors
  rw [if_pos hk.1.symm]
  simp only
  unfold updateFactors
  rw [hv]
  simp only
  rw [if_neg]
  rintro ⟨⟨h, -⟩, -⟩
  apply hq
  have : f.kfactor.cols = f.error.rows := h
  rw [← hk.2, this, he]

/-- the kind of a map cannot be mistaken: the three names of a run differ -/
theorem names_differ (nm : Names) (r : Run) (first last : ℕ) (hu : ∀ c rest, nm.units = c :: rest → c ≠ 'E' ∧ c ≠ 'D')
    (hu0 : nm.units ≠ []) :
    outName nm [] r first last ≠ outName nm "ERROR_".toList r first last ∧
    outName nm [] r first last ≠ outName nm "DELTA_".toList r first last ∧
    outName nm "ERROR_".toList r first last ≠ outName nm "DELTA_".toList r first last := by
  have hE : "ERROR_".toList = ['E', 'R', 'R', 'O', 'R', '_'] := by decide
  have hD : "DELTA_".toList = ['D', 'E', 'L', 'T', 'A', '_'] := by decide
  rw [hE, hD]
  cases hun : nm.units with
  | nil => exact absurd hun hu0
  | cons c rest =>
    obtain ⟨h1, h2⟩ := hu c rest hun
    unfold outName
    rw [hun]
    simp only [List.append_assoc, List.append_cancel_left_eq, List.nil_append, List.cons_append, ne_eq, List.cons.injEq]
    refine ⟨fun h => h1 h.1, fun h => h2 h.1, fun h => absurd h.1 (by decide)⟩

/-- the power of the maps multiplied by the best factor is at most that of the series for which the factor was determined -/
theorem gain_power (n : ℕ) (x y : ℕ → ℝ) :
    ∑ t ∈ Finset.range n, (gain n x y * x t) ^ 2 ≤ ∑ t ∈ Finset.range n, y t ^ 2 := by
  by_cases h0 : ∑ t ∈ Finset.range n, x t ^ 2 = 0
  · have hx : ∀ t ∈ Finset.range n, x t ^ 2 = 0 := (Finset.sum_eq_zero_iff_of_nonneg fun t _ => sq_nonneg _).1 h0
    have : ∑ t ∈ Finset.range n, (gain n x y * x t) ^ 2 = 0 :=
      Finset.sum_eq_zero fun t ht => by rw [mul_pow, hx t ht, mul_zero]
    rw [this]
    exact Finset.sum_nonneg fun t _ => sq_nonneg _
  · have key : ∑ t ∈ Finset.range n, (gain n x y * x t) ^ 2 =
        ∑ t ∈ Finset.range n, y t ^ 2 - ∑ t ∈ Finset.range n, (gain n x y * x t - y t) ^ 2 := by
      have hg : gain n x y * ∑ t ∈ Finset.range n, x t ^ 2 = ∑ t ∈ Finset.range n, x t * y t := by
        unfold gain
        simp only [← pow_two]
        exact div_mul_cancel₀ _ h0
      have e1 : ∑ t ∈ Finset.range n, (gain n x y * x t) ^ 2 = gain n x y * (gain n x y * ∑ t ∈ Finset.range n, x t ^ 2) := by
        rw [Finset.mul_sum, Finset.mul_sum]
        exact Finset.sum_congr rfl fun t _ => by ring
      have e2 : ∑ t ∈ Finset.range n, (gain n x y * x t - y t) ^ 2 =
          ∑ t ∈ Finset.range n, (gain n x y * x t) ^ 2 - 2 * (gain n x y * ∑ t ∈ Finset.range n, x t * y t) +
            ∑ t ∈ Finset.range n, y t ^ 2 := by
        rw [Finset.mul_sum, Finset.mul_sum, ← Finset.sum_sub_distrib, ← Finset.sum_add_distrib]
        exact Finset.sum_congr rfl fun t _ => by ring
      rw [e2, e1, hg]
      ring
    rw [key]
    have := Finset.sum_nonneg (s := Finset.range n) fun t _ => sq_nonneg (gain n x y * x t - y t)
    linarith

/-- C95: when the maps that are scaled are those from which factor and magnitude were determined (the best factor for `y` and
the root of the sum of squares of `y`), the leakage error is at most the error of the factor -/
theorem leakage_le (n : ℕ) (x y : ℕ → ℝ) (e : ℝ) (he : 0 ≤ e) (hp : 0 < Real.sqrt (∑ t ∈ Finset.range n, y t ^ 2)) :
    e * (Real.sqrt (∑ t ∈ Finset.range n, (gain n x y * x t) ^ 2) / Real.sqrt (∑ t ∈ Finset.range n, y t ^ 2)) ≤ e := by
  have : Real.sqrt (∑ t ∈ Finset.range n, (gain n x y * x t) ^ 2) / Real.sqrt (∑ t ∈ Finset.range n, y t ^ 2) ≤ 1 :=
    (div_le_one hp).2 (Real.sqrt_le_sqrt (gain_power n x y))
  nlinarith

/-! ## a concrete run -/

/-- two latitudes and three longitudes; the cell (1, 2) has no factor -/
noncomputable def exFile : FactorFile where
  lon := [0, 120, 240]
  lat := [45, -45]
  kfactor := ⟨2, 3, fun i j => if (i, j) = (1, 2) then some (-9999) else some (1 + i)⟩
  error := ⟨2, 3, fun _ _ => some 3⟩
  power := ⟨2, 3, fun _ _ => some 5⟩
  fill := some (some (-9999))

theorem exRegular : Regular exFile := ⟨by decide, ⟨rfl, rfl⟩, ⟨rfl, rfl⟩, ⟨rfl, rfl⟩⟩

example : Valid exFile 1 0 2 ∧ Invalid exFile 1 2 := by
  refine ⟨⟨?_, ?_⟩, _, rfl, Or.inr ?_⟩
  · norm_num [exFile]
  · norm_num [exFile]
  · simp [exFile]

/-- the hypotheses of `scale_value` hold for fifteen months, so the run succeeds with three maps -/
example (F : Fmt) : ∃ fs' A E D, scaleMaps 1 1 0 (fun x => x) (fun x _ => x) (fun x => x) "" "" ⟨[], ['c', 'm', 'w', 'e'], []⟩ (exRun F)
    exGrace none exGrace [] (fun _ => 1) (.data exFile) (fun _ => none) = .ok (fs', [A, E, D]) := by
  obtain ⟨fs', C, S, f, h, -⟩ := error_value 1 1 0 one_ne_zero (fun x => x) (fun x _ => x) (fun x => x) "" "" (exRun F)
    (by simp [exRun]) (by simp [exRun, Maps.Opts.order]) exGrace 15 (exData F) none (by simp) 6 (by simp [exRun, halfWidth])
    (by norm_num) exWindows (fun _ => 1) (fun _ => 1) (by simp [Maps.weights, exRun]) exFile.lon exFile.lat (fun _ => none) rfl
  obtain ⟨A, E, D, hr, -⟩ := scale_value 1 1 0 one_ne_zero (fun x => x) (fun x _ => x) (fun x => x) "" "" ⟨[], ['c', 'm', 'w', 'e'], []⟩
    (exRun F) (by simp [exRun]) (by simp [exRun, Maps.Opts.order]) exGrace 15 (exData F) none (by simp) exGrace rfl (fun _ => 1)
    (fun _ => 1) (by simp [Maps.weights, exRun]) exFile exRegular (fun _ => none) fs' _ h
  exact ⟨fs', A, E, D, hr⟩

end Verif.ScaleMaps
