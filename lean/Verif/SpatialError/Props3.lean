import Verif.SpatialError.Props2
import Verif.Maps.Props

/-!
# C92: repeated runs, the name of the stored file, signals which are no errors
-/
namespace Verif.SpatialError
open Verif.Harmonics Verif.Legendre Verif.Maps Verif.TimeSeries Verif.Synthesis

/-! ## names -/

/-- two texts which begin with digits, followed by no digit, split in the same way -/
theorem span_digits (a b x y : List Char) (ha : ∀ c ∈ a, c.isDigit = true) (hb : ∀ c ∈ b, c.isDigit = true)
    (hx : ∀ c r, x = c :: r → c.isDigit = false) (hy : ∀ c r, y = c :: r → c.isDigit = false) (h : a ++ x = b ++ y) : a = b ∧ x = y := by
  induction a generalizing b with
  | nil =>
    cases b with
    | nil => exact ⟨rfl, h⟩
    | cons d b =>
      have := hx d _ h
      rw [hb d List.mem_cons_self] at this
      cases this
  | cons c a ih =>
    cases b with
    | nil =>
      have := hy c _ h.symm
      rw [ha c List.mem_cons_self] at this
      cases this
    | cons d b =>
      rw [List.cons_append, List.cons_append, List.cons.injEq] at h
      obtain ⟨e1, e2⟩ := ih b (fun c hc => ha c (List.mem_cons_of_mem _ hc)) (fun c hc => hb c (List.mem_cons_of_mem _ hc)) h.2
      exact ⟨by rw [h.1, e1], e2⟩

theorem num_digits (w n : ℕ) : ∀ c ∈ num w n, c.isDigit = true := by
  intro c hc
  unfold num at hc
  rcases List.mem_append.1 hc with h | h
  · rw [List.eq_of_mem_replicate h]; decide
  · obtain ⟨d, -, rfl⟩ := List.mem_map.1 h
    have key : ∀ d : Fin 10, (SLR.dchar d).isDigit = true := by decide
    exact key d

theorem num_injective (w a b : ℕ) (h : num w a = num w b) : a = b := num_inj w a b h

theorem num_head (w n : ℕ) : ∃ c r, num w n = c :: r ∧ c.isDigit = true := by
  cases h : num w n with
  | nil =>
    unfold num at h
    rw [List.append_eq_nil_iff, List.map_eq_nil_iff] at h
    exact absurd h.2 (SpatialIO.natDigits_ne n)
  | cons c r => exact ⟨c, r, rfl, num_digits w n c (by rw [h]; exact List.mem_cons_self)⟩

/-- C92: for one product the names of the files with coefficient errors differ when maximum degree or order, filter, atmospheric
correction, first or last month, or format differ -/
theorem deltaName_injective (r r' : Run) (h1 : r.PROC = r'.PROC) (h2 : r.DREL = r'.DREL) (h3 : r.DSET = r'.DSET) (a b a' b' : ℕ)
    (h : deltaName r a b = deltaName r' a' b') :
    r.o.LMAX = r'.o.LMAX ∧ r.o.order = r'.o.order ∧ r.o.DESTRIPE = r'.o.DESTRIPE ∧ r.ATM = r'.ATM ∧ a = a' ∧ b = b' ∧
      r.DATAFORM = r'.DATAFORM := by
  unfold deltaName at h
  rw [h1, h2, h3] at h
  simp only [List.append_assoc, List.cons_append, List.append_cancel_left_eq, List.cons.injEq, true_and, List.nil_append] at h
  have tailOk : ∀ (q : Run) (x y : ℕ), ∀ c z, (if q.o.DESTRIPE = true then ['_', 'F', 'L'] else []) ++
      ((if q.ATM = true then ['_', 'w', 'A', 'T', 'M'] else []) ++ '_' :: (num 3 x ++ '-' :: (num 3 y ++ '.' :: q.DATAFORM.suffix))) =
        c :: z → c = '_' := by
    intro q x y c z hz
    cases hd : q.o.DESTRIPE <;> cases ha : q.ATM <;> rw [hd, ha] at hz <;>
      simp only [Bool.false_eq_true, if_false, if_true, List.nil_append, List.cons_append, List.cons.injEq] at hz <;> exact hz.1.symm
  have ordOk : ∀ (q : Run) (x y : ℕ), ∀ c z, (if q.o.order ≠ q.o.LMAX then 'M' :: num 0 q.o.order else []) ++
      ((if q.o.DESTRIPE = true then ['_', 'F', 'L'] else []) ++
      ((if q.ATM = true then ['_', 'w', 'A', 'T', 'M'] else []) ++ '_' :: (num 3 x ++ '-' :: (num 3 y ++ '.' :: q.DATAFORM.suffix)))) =
        c :: z → c.isDigit = false := by
    intro q x y c z hz
    by_cases ho : q.o.order ≠ q.o.LMAX
    · rw [if_pos ho, List.cons_append, List.cons.injEq] at hz
      rw [← hz.1]; decide
    · rw [if_neg ho, List.nil_append] at hz
      rw [tailOk q x y c z hz]; decide
  obtain ⟨eL, h⟩ := span_digits _ _ _ _ (num_digits 0 r.o.LMAX) (num_digits 0 r'.o.LMAX) (ordOk r a b) (ordOk r' a' b') h
  have eL := num_injective 0 _ _ eL
  have key : r.o.order = r'.o.order ∧ (if r.o.DESTRIPE = true then ['_', 'F', 'L'] else []) ++
      ((if r.ATM = true then ['_', 'w', 'A', 'T', 'M'] else []) ++ '_' :: (num 3 a ++ '-' :: (num 3 b ++ '.' :: r.DATAFORM.suffix))) =
      (if r'.o.DESTRIPE = true then ['_', 'F', 'L'] else []) ++
      ((if r'.ATM = true then ['_', 'w', 'A', 'T', 'M'] else []) ++
        '_' :: (num 3 a' ++ '-' :: (num 3 b' ++ '.' :: r'.DATAFORM.suffix))) := by
    by_cases ho : r.o.order ≠ r.o.LMAX <;> by_cases ho' : r'.o.order ≠ r'.o.LMAX
    · rw [if_pos ho, if_pos ho', List.cons_append, List.cons_append, List.cons.injEq] at h
      obtain ⟨e1, e2⟩ := span_digits _ _ _ _ (num_digits 0 _) (num_digits 0 _)
        (fun c z hz => by rw [tailOk r a b c z hz]; decide) (fun c z hz => by rw [tailOk r' a' b' c z hz]; decide) h.2
      exact ⟨num_injective 0 _ _ e1, e2⟩
    · rw [if_pos ho, if_neg ho', List.cons_append, List.nil_append] at h
      have := tailOk r' a' b' _ _ h.symm
      exact absurd this (by decide)
    · rw [if_neg ho, if_pos ho', List.cons_append, List.nil_append] at h
      have := tailOk r a b _ _ h
      exact absurd this (by decide)
    · rw [if_neg ho, if_neg ho', List.nil_append, List.nil_append] at h
      push Not at ho ho'
      exact ⟨by rw [ho, ho', eL], h⟩
  obtain ⟨eM, h⟩ := key
  refine ⟨eL, eM, ?_⟩
  have fin : num 3 a ++ '-' :: (num 3 b ++ '.' :: r.DATAFORM.suffix) = num 3 a' ++ '-' :: (num 3 b' ++ '.' :: r'.DATAFORM.suffix) →
      a = a' ∧ b = b' ∧ r.DATAFORM = r'.DATAFORM := by
    intro h
    obtain ⟨e1, e2⟩ := span_digits _ _ _ _ (num_digits 3 a) (num_digits 3 a')
      (fun c z hz => by rw [List.cons.injEq] at hz; rw [← hz.1]; decide)
      (fun c z hz => by rw [List.cons.injEq] at hz; rw [← hz.1]; decide) h
    rw [List.cons.injEq] at e2
    obtain ⟨e3, e4⟩ := span_digits _ _ _ _ (num_digits 3 b) (num_digits 3 b')
      (fun c z hz => by rw [List.cons.injEq] at hz; rw [← hz.1]; decide)
      (fun c z hz => by rw [List.cons.injEq] at hz; rw [← hz.1]; decide) e2.2
    rw [List.cons.injEq] at e4
    refine ⟨num_injective 3 _ _ e1, num_injective 3 _ _ e3, ?_⟩
    have := e4.2
    revert this
    cases r.DATAFORM <;> cases r'.DATAFORM <;> simp [Fmt.suffix]
  obtain ⟨c1, z1, n1, d1⟩ := num_head 3 a
  obtain ⟨c2, z2, n2, d2⟩ := num_head 3 a'
  cases hd : r.o.DESTRIPE <;> cases hd' : r'.o.DESTRIPE <;> cases ha : r.ATM <;> cases ha' : r'.ATM <;>
    rw [hd, hd', ha, ha'] at h <;>
    simp only [Bool.false_eq_true, if_false, if_true, List.nil_append, List.cons_append, List.cons.injEq, true_and] at h
  all_goals first
    | exact ⟨trivial, trivial, fin h⟩
    | exact ⟨rfl, rfl, fin h⟩
    | skip
  all_goals exfalso
  all_goals first
    | (rw [n1, List.cons_append, List.cons.injEq] at h; rw [h.1] at d1; revert d1; decide)
    | (rw [n2, List.cons_append, List.cons.injEq] at h; rw [← h.1] at d2; revert d2; decide)
    | (revert h; simp; done)

/-! ## repeated runs -/

/-- C92: after a run which wrote netCDF4 or HDF5 files, every run with the same name of the stored file, whatever its data, its
options for the map and its grid, makes its map from the errors of the coefficients of the first run -/
theorem later_run (eps scalef cutoff : ℝ) (hsc : scalef ≠ 0) (erf : ℝ → ℝ) (tppf : ℝ → ℝ → ℝ) (fmt : ℝ → ℝ)
    (title reference : String) (r : Run) (hL : 2 ≤ r.o.LMAX) (hM : r.o.order ≤ r.o.LMAX) (hF : r.DATAFORM ≠ .ascii) (grace : Harm ℝ)
    (n : ℕ) (D : Data r.o grace n) (meanFile : Option (Harm ℝ)) (hmf : ∀ f, meanFile = some f → f.nt = none)
    (H : ℕ) (hH : H = halfWidth r.PROC r.DREL) (hn : 2 * H < n) (hw : ∀ i < n - 2 * H, WindowOk H (times grace) i)
    (dfactor wt : ℕ → ℝ) (hwt : weights cutoff r.o.RAD r.o.LMAX = some wt) (lons lats : List ℚ)
    (fs : List Char → Option CacheFile) (hfs : fs (cacheName r grace) = none)
    (r' : Run) (hP : r'.PROC = r.PROC ∧ r'.DREL = r.DREL ∧ r'.DSET = r.DSET) (grace' : Harm ℝ) (n' : ℕ) (hn' : 0 < n')
    (D' : Data r'.o grace' n') (hname : cacheName r' grace' = cacheName r grace) (meanFile' : Option (Harm ℝ))
    (hmf' : ∀ f, meanFile' = some f → f.nt = none) (dfactor' wt' : ℕ → ℝ) (hwt' : weights cutoff r'.o.RAD r'.o.LMAX = some wt')
    (lons' lats' : List ℚ) :
    ∃ (fs' : List Char → Option CacheFile) (C S : ℕ → ℕ → ℝ),
      spatialError eps scalef cutoff erf tppf fmt title reference r grace meanFile dfactor lons lats fs =
        .ok (fs', errorMap eps r.o (fun l => dfactor l * wt l) C S ((n - 2 * H : ℕ) : ℝ) lons lats) ∧
      spatialError eps scalef cutoff erf tppf fmt title reference r' grace' meanFile' dfactor' lons' lats' fs' =
        .ok (fs', errorMap eps r'.o (fun l => dfactor' l * wt' l) C S ((n - 2 * H : ℕ) : ℝ) lons' lats') := by
  obtain ⟨fs', C, S, f, e1, -, -, e2, e3, -⟩ := error_value eps scalef cutoff hsc erf tppf fmt title reference r hL hM grace n D meanFile
    hmf H hH hn hw dfactor wt hwt lons lats fs hfs
  obtain ⟨i1, i2, -⟩ := deltaName_injective r' r hP.1 hP.2.1 hP.2.2 _ _ _ _ hname
  refine ⟨fs', C, S, e1, ?_⟩
  have := cached_value eps scalef cutoff hsc erf tppf fmt title reference r' (by omega) (by omega) grace' n' hn' D' meanFile' hmf'
    dfactor' wt' hwt' lons' lats' fs' f (by rw [hname]; exact e2) C S ((n - 2 * H : ℕ) : ℤ) (by omega)
    (by rw [i1, i2]; exact e3 hF)
  rw [this]
  simp

/-- C92: a run repeated with netCDF4 or HDF5 files gives the same map and changes no file -/
theorem repeated_run (eps scalef cutoff : ℝ) (hsc : scalef ≠ 0) (erf : ℝ → ℝ) (tppf : ℝ → ℝ → ℝ) (fmt : ℝ → ℝ)
    (title reference : String) (r : Run) (hL : 2 ≤ r.o.LMAX) (hM : r.o.order ≤ r.o.LMAX) (hF : r.DATAFORM ≠ .ascii) (grace : Harm ℝ)
    (n : ℕ) (D : Data r.o grace n) (meanFile : Option (Harm ℝ)) (hmf : ∀ f, meanFile = some f → f.nt = none)
    (hn : 2 * halfWidth r.PROC r.DREL < n) (hw : ∀ i < n - 2 * halfWidth r.PROC r.DREL, WindowOk (halfWidth r.PROC r.DREL) (times grace) i)
    (dfactor wt : ℕ → ℝ) (hwt : weights cutoff r.o.RAD r.o.LMAX = some wt) (lons lats : List ℚ)
    (fs : List Char → Option CacheFile) (hfs : fs (cacheName r grace) = none) :
    ∃ fs' map, spatialError eps scalef cutoff erf tppf fmt title reference r grace meanFile dfactor lons lats fs = .ok (fs', map) ∧
      spatialError eps scalef cutoff erf tppf fmt title reference r grace meanFile dfactor lons lats fs' = .ok (fs', map) := by
  obtain ⟨fs', C, S, e1, e2⟩ := later_run eps scalef cutoff hsc erf tppf fmt title reference r hL hM hF grace n D meanFile hmf _ rfl hn hw
    dfactor wt hwt lons lats fs hfs r ⟨rfl, rfl, rfl⟩ grace n (by omega) D rfl meanFile hmf dfactor wt hwt lons lats
  exact ⟨fs', _, e1, e2⟩

/-- C92 (deviation): other data with the same first and last month (for instance with other degree one or SLR coefficients, or with
missing months) do not change the map: the errors of the data of the first run are shown -/
theorem stale_errors (eps scalef cutoff : ℝ) (hsc : scalef ≠ 0) (erf : ℝ → ℝ) (tppf : ℝ → ℝ → ℝ) (fmt : ℝ → ℝ)
    (title reference : String) (r : Run) (hL : 2 ≤ r.o.LMAX) (hM : r.o.order ≤ r.o.LMAX) (hF : r.DATAFORM ≠ .ascii) (grace : Harm ℝ)
    (n : ℕ) (D : Data r.o grace n) (hn : 2 * halfWidth r.PROC r.DREL < n)
    (hw : ∀ i < n - 2 * halfWidth r.PROC r.DREL, WindowOk (halfWidth r.PROC r.DREL) (times grace) i)
    (dfactor wt : ℕ → ℝ) (hwt : weights cutoff r.o.RAD r.o.LMAX = some wt) (lons lats : List ℚ)
    (fs : List Char → Option CacheFile) (hfs : fs (cacheName r grace) = none)
    (grace' : Harm ℝ) (n' : ℕ) (hn' : 0 < n') (D' : Data r.o grace' n') (h0 : grace'.month.headD 0 = grace.month.headD 0)
    (h1 : grace'.month.getLastD 0 = grace.month.getLastD 0) :
    ∃ fs' map, spatialError eps scalef cutoff erf tppf fmt title reference r grace none dfactor lons lats fs = .ok (fs', map) ∧
      spatialError eps scalef cutoff erf tppf fmt title reference r grace' none dfactor lons lats fs' = .ok (fs', map) := by
  obtain ⟨fs', C, S, e1, e2⟩ := later_run eps scalef cutoff hsc erf tppf fmt title reference r hL hM hF grace n D none (by simp) _ rfl hn
    hw dfactor wt hwt lons lats fs hfs r ⟨rfl, rfl, rfl⟩ grace' n' hn' D' (by unfold cacheName; rw [h0, h1]) none (by simp) dfactor wt
    hwt lons lats
  exact ⟨fs', _, e1, e2⟩

/-- C92 (deviation): with text files a repeated run divides by the number of the month of the mean date instead of the number of
points: even if the errors of the coefficients are kept exactly the map changes by the square root of the ratio -/
theorem repeated_run_ascii (eps scalef cutoff : ℝ) (hsc : scalef ≠ 0) (erf : ℝ → ℝ) (tppf : ℝ → ℝ → ℝ)
    (title reference : String) (r : Run) (hL : 2 ≤ r.o.LMAX) (hM : r.o.order ≤ r.o.LMAX) (hF : r.DATAFORM = .ascii) (grace : Harm ℝ)
    (n : ℕ) (D : Data r.o grace n) (meanFile : Option (Harm ℝ)) (hmf : ∀ f, meanFile = some f → f.nt = none)
    (H : ℕ) (hH : H = halfWidth r.PROC r.DREL) (hn : 2 * H < n) (hw : ∀ i < n - 2 * H, WindowOk H (times grace) i)
    (dfactor wt : ℕ → ℝ) (hwt : weights cutoff r.o.RAD r.o.LMAX = some wt) (lons lats : List ℚ)
    (fs : List Char → Option CacheFile) (hfs : fs (cacheName r grace) = none)
    (k : ℕ) (hk0 : 0 < k) (hk : Time.calendarToGrace (SpatialIO.roundTo 4 (meanTime grace.time H)) = k) :
    ∃ fs' map, spatialError eps scalef cutoff erf tppf id title reference r grace meanFile dfactor lons lats fs = .ok (fs', map) ∧
      spatialError eps scalef cutoff erf tppf id title reference r grace meanFile dfactor lons lats fs' =
        .ok (fs', map.map fun row => row.map fun x => Real.sqrt (((n - 2 * H : ℕ) : ℝ) / k) * x) := by
  obtain ⟨fs', C, S, f, e1, -, -, e2, -, e3⟩ := error_value eps scalef cutoff hsc erf tppf id title reference r hL hM grace n D meanFile
    hmf H hH hn hw dfactor wt hwt lons lats fs hfs
  have e3 := e3 hF
  rw [hk] at e3
  refine ⟨fs', _, e1, ?_⟩
  rw [cached_value eps scalef cutoff hsc erf tppf id title reference r hL hM grace n (by omega) D meanFile hmf
    dfactor wt hwt lons lats fs' f e2 C S (k : ℤ) (by omega) e3]
  have hN : (0 : ℝ) < ((n - 2 * H : ℕ) : ℝ) := by
    have : 0 < n - 2 * H := by omega
    exact_mod_cast this
  rw [errorMap_count eps r.o _ C S ((n - 2 * H : ℕ) : ℝ) ((k : ℤ) : ℝ) hN (by exact_mod_cast hk0)]
  simp

/-! ## signals which are no errors -/

theorem filt_add (o : Maps.Opts) (c e : ℕ → ℕ → ℝ) (t : ℝ) :
    filt o (fun l m => c l m + t * e l m) = fun l m => filt o c l m + t * filt o e l m := by
  unfold filt
  cases o.DESTRIPE
  · simp
  · simp only [if_true]
    funext l m
    have := Destripe.column_linear true false o.LMAX o.order c e 1 t l m
    simp only [one_mul] at this
    exact this

theorem filt_smul (o : Maps.Opts) (c : ℕ → ℕ → ℝ) (t : ℝ) : filt o (fun l m => t * c l m) = fun l m => t * filt o c l m := by
  unfold filt
  cases o.DESTRIPE
  · simp
  · simp only [if_true]
    funext l m
    have := Destripe.column_linear true false o.LMAX o.order c c t 0 l m
    simp only [zero_mul, add_zero] at this
    exact this

theorem filt_seasonal (o : Maps.Opts) (c : ℕ → ℕ → ℝ) (b : ℕ → ℕ → Fin 6 → ℝ) (T : ℝ) (l m : ℕ) :
    filt o (fun l m => c l m + seasonalModel (b l m) T) l m =
      filt o c l m + seasonalModel (fun j => filt o (fun l m => b l m j) l m) T := by
  have e : (fun l m => c l m + seasonalModel (b l m) T) = fun l m =>
      (((((c l m + 1 * b l m 0) + T * b l m 1) + Real.sin (2 * Real.pi * T) * b l m 2) + Real.cos (2 * Real.pi * T) * b l m 3) +
        Real.sin (4 * Real.pi * T) * b l m 4) + Real.cos (4 * Real.pi * T) * b l m 5 := by
    funext l m
    unfold seasonalModel; ring
  rw [e, filt_add o (fun l m => ((((c l m + 1 * b l m 0) + T * b l m 1) + Real.sin (2 * Real.pi * T) * b l m 2) +
      Real.cos (2 * Real.pi * T) * b l m 3) + Real.sin (4 * Real.pi * T) * b l m 4),
    filt_add o (fun l m => (((c l m + 1 * b l m 0) + T * b l m 1) + Real.sin (2 * Real.pi * T) * b l m 2) +
      Real.cos (2 * Real.pi * T) * b l m 3),
    filt_add o (fun l m => ((c l m + 1 * b l m 0) + T * b l m 1) + Real.sin (2 * Real.pi * T) * b l m 2),
    filt_add o (fun l m => (c l m + 1 * b l m 0) + T * b l m 1), filt_add o (fun l m => c l m + 1 * b l m 0), filt_add o c]
  unfold seasonalModel; ring

/-- data multiplied by `k`, with a mean, a trend, an annual and a semi-annual cycle added to every coefficient -/
noncomputable def changed (h : Harm ℝ) (k : ℝ) (bC bS : ℕ → ℕ → Fin 6 → ℝ) : Harm ℝ :=
  { h with clm := fun l m t => k * h.clm l m t + seasonalModel (bC l m) (times h t)
           slm := fun l m t => k * h.slm l m t + seasonalModel (bS l m) (times h t) }

/-- the coefficients of a mean file multiplied by `k` -/
noncomputable def changedMean (k : ℝ) : Option (Harm ℝ) → Option (Harm ℝ)
  | none => none
  | some f => some { f with clm := fun l m t => k * f.clm l m t, slm := fun l m t => k * f.slm l m t }

theorem input_changed (b : Bool) (o : Maps.Opts) (grace : Harm ℝ) (n : ℕ) (mf : Option (Harm ℝ)) (k : ℝ)
    (bC bS : ℕ → ℕ → Fin 6 → ℝ) (l m : ℕ) :
    ∃ c : Fin 6 → ℝ, ∀ t, input b o (changed grace k bC bS) n (changedMean k mf) l m t =
      k * input b o grace n mf l m t + seasonalModel c (times grace t) := by
  -- the change of the static field is a constant
  let B : ℕ → ℕ → Fin 6 → ℝ := fun l m j => if l ≤ grace.lmax ∧ m ≤ grace.mmax then (if b then bS l m j else bC l m j) else 0
  have hB : ∀ l m t, coef b (changed grace k bC bS) t l m = k * coef b grace t l m + seasonalModel (B l m) (times grace t) := by
    intro l m t
    unfold coef changed
    simp only [B]
    by_cases h : l ≤ grace.lmax ∧ m ≤ grace.mmax
    · simp only [h, and_self, if_true]; cases b <;> rfl
    · simp only [h, if_false]; unfold seasonalModel; ring
  let s : ℕ → ℕ → ℝ := fun l m => static b (changed grace k bC bS) n (changedMean k mf) l m - k * static b grace n mf l m
  refine ⟨fun j => filt o (fun l m => (if j = 0 then B l m j - s l m else B l m j)) l m, fun t => ?_⟩
  have e : (fun l m => coef b (changed grace k bC bS) t l m - static b (changed grace k bC bS) n (changedMean k mf) l m) = fun l m =>
      k * (coef b grace t l m - static b grace n mf l m) +
        seasonalModel (fun j => if j = 0 then B l m j - s l m else B l m j) (times grace t) := by
    funext l m
    rw [hB]
    simp only [s]
    unfold seasonalModel
    simp only [Fin.reduceEq, if_true, if_false]
    ring
  unfold input
  rw [e, filt_seasonal, filt_smul]

/-- C92: a mean, a trend, annual and semi-annual cycles in the data are no errors, and errors are proportional to the data: from
changed data the map is that of the data multiplied by `|k|`, whether the static field is the mean of the data or is given, with
and without filter -/
theorem signal_no_error (eps scalef cutoff : ℝ) (hsc : scalef ≠ 0) (erf : ℝ → ℝ) (tppf : ℝ → ℝ → ℝ) (fmt : ℝ → ℝ)
    (title reference : String) (r : Run) (hL : 2 ≤ r.o.LMAX) (hM : r.o.order ≤ r.o.LMAX) (grace : Harm ℝ) (n : ℕ)
    (D : Data r.o grace n) (meanFile : Option (Harm ℝ)) (hmf : ∀ f, meanFile = some f → f.nt = none)
    (hn : 2 * halfWidth r.PROC r.DREL < n) (hw : ∀ i < n - 2 * halfWidth r.PROC r.DREL, WindowOk (halfWidth r.PROC r.DREL) (times grace) i)
    (dfactor wt : ℕ → ℝ) (hwt : weights cutoff r.o.RAD r.o.LMAX = some wt) (lons lats : List ℚ)
    (fs : List Char → Option CacheFile) (hfs : fs (cacheName r grace) = none) (k : ℝ) (hk : k ≠ 0) (bC bS : ℕ → ℕ → Fin 6 → ℝ) :
    ∃ fs1 fs2 map, spatialError eps scalef cutoff erf tppf fmt title reference r grace meanFile dfactor lons lats fs = .ok (fs1, map) ∧
      spatialError eps scalef cutoff erf tppf fmt title reference r (changed grace k bC bS) (changedMean k meanFile) dfactor lons lats fs =
        .ok (fs2, map.map fun row => row.map fun x => |k| * x) := by
  have D' : Data r.o (changed grace k bC bS) n := ⟨D.lmax, D.mmax, D.nt, D.wf, D.months⟩
  have hmf' : ∀ f, changedMean k meanFile = some f → f.nt = none := by
    intro f hf
    cases meanFile with
    | none => simp [changedMean] at hf
    | some g =>
      simp only [changedMean, Option.some.injEq] at hf
      rw [← hf]; exact hmf g rfl
  obtain ⟨fs1, C1, S1, f1, e1, v1, -⟩ := error_value eps scalef cutoff hsc erf tppf fmt title reference r hL hM grace n D meanFile
    hmf _ rfl hn hw dfactor wt hwt lons lats fs hfs
  obtain ⟨fs2, C2, S2, f2, e2, v2, -⟩ := error_value eps scalef cutoff hsc erf tppf fmt title reference r hL hM (changed grace k bC bS) n
    D' (changedMean k meanFile) hmf' _ rfl hn hw dfactor wt hwt lons lats fs hfs
  refine ⟨fs1, fs2, _, e1, ?_⟩
  rw [e2, ← errorMap_scale eps r.o _ C1 S1 _ |k| (abs_nonneg k)]
  congr 2
  have hH1 : 1 ≤ halfWidth r.PROC r.DREL := by unfold halfWidth; split <;> omega
  apply errorMap_congr
  intro l m h1 h2 h3
  obtain ⟨a1, a2⟩ := v1 l m h1 h2 h3
  obtain ⟨b1, b2⟩ := v2 l m h1 h2 h3
  have key : ∀ (b : Bool) (s s' : ℝ), IsNoise n (halfWidth r.PROC r.DREL) (times grace) (input b r.o grace n meanFile l m) s →
      IsNoise n (halfWidth r.PROC r.DREL) (times grace) (input b r.o (changed grace k bC bS) n (changedMean k meanFile) l m) s' →
      s' = |k| * s := by
    intro b s s' hs hs'
    obtain ⟨c, hc⟩ := input_changed b r.o grace n meanFile k bC bS l m
    have := noise_affine n _ (times grace) _ s k hk c hs
    exact noise_unique n _ hn (by omega) (times grace) _ hw s' (|k| * s) hs'
      (noise_congr n _ _ _ _ _ (fun j _ => (hc j).symm) this)
  exact ⟨key false _ _ a1 b1, key true _ _ a2 b2⟩

/-! ## a concrete run -/

/-- fifteen months of 2002 and 2003 -/
def exGrace : Harm ℝ where
  lmax := 3
  mmax := 3
  nt := some 15
  clm := fun l m t => if (l, m, t) = (2, 1, 7) then 1 else 0
  slm := fun _ _ _ => 0
  time := (List.range 15).map fun k : ℕ => 2002 + 13 / 24 + (k : ℚ) / 12
  month := (List.range 15).map fun k : ℕ => (7 + k : ℤ)

def exRun (F : Fmt) : Run where
  PROC := ['C', 'S', 'R']
  DREL := ['R', 'L', '0', '6']
  DSET := ['G', 'S', 'M']
  ATM := false
  DATAFORM := F
  o := { LMIN := 1, LMAX := 3, MMAX := 0, RAD := 0, DESTRIPE := false, ocean := none }

theorem exData (F : Fmt) : Data (exRun F).o exGrace 15 :=
  ⟨rfl, rfl, rfl, ⟨rfl, rfl⟩, by show List.Pairwise (· < ·) ((List.range 15).map fun k : ℕ => (7 + k : ℤ)); decide⟩

theorem exWindows : ∀ i < 15 - 2 * 6, WindowOk 6 (times exGrace) i :=
  monthly_windows exGrace 15 (2002 + 13 / 24) (by intro k hk; simp [exGrace, hk])

theorem exMeanTime : meanTime exGrace.time 6 = 2002 + 13 / 24 + 7 / 12 := by
  have : exGrace.time = (List.range 15).map fun k : ℕ => (2002 + 13 / 24 + (k : ℚ) / 12 : ℚ) := rfl
  rw [this]; decide +kernel

/-- the hypotheses hold for the run, with any mean date; repeating it with text files divides by 14 instead of 3 -/
example (F : Fmt) : 2 ≤ (exRun F).o.LMAX ∧ (exRun F).o.order ≤ (exRun F).o.LMAX ∧ Data (exRun F).o exGrace 15 ∧
    halfWidth (exRun F).PROC (exRun F).DREL = 6 ∧ (∀ i < 15 - 2 * 6, WindowOk 6 (times exGrace) i) ∧
    Maps.weights 0 (exRun F).o.RAD (exRun F).o.LMAX = some (fun _ => 1) ∧
    Time.calendarToGrace (SpatialIO.roundTo 4 (meanTime exGrace.time 6)) = (14 : ℕ) ∧ 15 - 2 * 6 ≠ 14 :=
  ⟨by simp [exRun], by simp [exRun, Maps.Opts.order], exData F, by simp [exRun, halfWidth], exWindows, by simp [Maps.weights, exRun],
    by rw [exMeanTime]; decide +kernel, by decide⟩

example : cacheName (exRun .netCDF4) exGrace = "CSR_RL06_GSM_DELTA_CLM_L3_007-021.nc".toList := by decide +kernel

example : halfWidth ['C', 'N', 'E', 'S'] ['R', 'L', '0', '2'] = 19 ∧ halfWidth ['C', 'N', 'E', 'S'] ['R', 'L', '0', '3'] = 6 ∧
    halfWidth ['C', 'S', 'R'] ['R', 'L', '0', '1'] = 6 := by decide

end Verif.SpatialError
