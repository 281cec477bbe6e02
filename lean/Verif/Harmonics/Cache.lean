import Verif.Harmonics.Model
import Verif.Common.Sum
import Mathlib.Analysis.InnerProductSpace.PiL2
import Mathlib.Data.Complex.Basic

/-!
# C23 cached properties, C25 degree amplitudes
-/
set_option linter.unusedSectionVars false
namespace Verif.Harmonics

/-! ## model -/

/-- body of the loop of `degree_amplitude` (degree_amplitude.py:73-77): the root of the sum over
*all* orders `0..MMAX` (`np.arange(0,MMAX+1)`) of the squares -/
noncomputable def degAmp (clm slm : ℕ → ℕ → ℕ → ℝ) (mmax l t : ℕ) : ℝ :=
  Real.sqrt (((List.range (mmax + 1)).map fun m : ℕ => clm l m t ^ 2 + slm l m t ^ 2).sum)

/-- `degree_amplitude(clm, slm, LMAX, MMAX)` (degree_amplitude.py:31-80) for arrays of shape
`(lp1, mp1, nt)`: fancy indexing beyond the shape is an `IndexError`. The final `squeeze` is not
modelled. -/
noncomputable def degreeAmplitude (lp1 mp1 : ℕ) (clm slm : ℕ → ℕ → ℕ → ℝ) (LMAX MMAX : Option ℕ) :
    Except Err (List (ℕ → ℝ)) :=
  let L := LMAX.getD (lp1 - 1)
  let M := MMAX.getD (mp1 - 1)
  if L < lp1 ∧ M < mp1 then .ok ((List.range (L + 1)).map fun l : ℕ => degAmp clm slm M l)
  else .error .indexError

/-- `self.clm - self.slm*1j` (harmonics.py:1876-1881) -/
noncomputable def complexForm (h : Harm ℝ) : ℕ → ℕ → ℕ → ℂ :=
  fun l m t => (h.clm l m t : ℂ) - (h.slm l m t : ℂ) * Complex.I

/-- the property `amplitude` (harmonics.py:1831-1858), which sums the entries of `self.power(2)` -/
noncomputable def amplitude (h : Harm ℝ) : ℕ → ℕ → ℝ :=
  let temp := power h 2
  fun l t => Real.sqrt (((List.range (temp.mmax + 1)).map fun m : ℕ =>
    temp.clm l m t + temp.slm l m t).sum)

/-- An object with its instance dictionary entries for the two `reify` attributes
(utilities.py:156-169): `none` as long as the attribute has not been computed. -/
structure Obj where
  h : Harm ℝ
  ilm : Option (ℕ → ℕ → ℕ → ℂ)
  amp : Option (ℕ → ℕ → ℝ)

/-- User actions on a collection of objects. -/
inductive Act
  /-- a method changing object `i` in place: `add`, `subtract`, `multiply`, `divide`, `convolve`,
  `truncate`, `mean(apply=True)` or assigning `clm`, `slm` -/
  | modify (i : ℕ) (f : Harm ℝ → Harm ℝ)
  /-- a method making a new object from object `i`: `copy` (the identity), `scale`, `power`,
  `drift`, `subset`, `index` -/
  | derive (i : ℕ) (f : Harm ℝ → Harm ℝ)
  | readIlm (i : ℕ)
  | readAmp (i : ℕ)

/-- outcome of a read -/
inductive Out
  | none
  | ilm (v : ℕ → ℕ → ℕ → ℂ)
  | amp (v : ℕ → ℕ → ℝ)

/-- One action. `reify.__get__` (utilities.py:164-169) is a non-data descriptor: it runs only if
the instance has no attribute of that name, and then stores the value in the instance. -/
noncomputable def act (os : List Obj) : Act → List Obj × Out
  | .modify i f => (os.modify i fun o => { o with h := f o.h }, .none)
  | .derive i f => match os[i]? with
    | some o => (os ++ [⟨f o.h, none, none⟩], .none)
    | none => (os, .none)
  | .readIlm i => match os[i]? with
    | some o => match o.ilm with
      | some v => (os, .ilm v)
      | none => (os.set i { o with ilm := some (complexForm o.h) }, .ilm (complexForm o.h))
    | none => (os, .none)
  | .readAmp i => match os[i]? with
    | some o => match o.amp with
      | some v => (os, .amp v)
      | none => (os.set i { o with amp := some (amplitude o.h) }, .amp (amplitude o.h))
    | none => (os, .none)

/-- run a history -/
noncomputable def run (os : List Obj) : List Act → List Obj
  | [] => os
  | a :: as => run (act os a).1 as

/-! ## specification -/

/-- What the actions do to the coefficients alone: reads have no effect. -/
def coeffStep (hs : List (Harm ℝ)) : Act → List (Harm ℝ)
  | .modify i f => hs.modify i f
  | .derive i f => match hs[i]? with
    | some h => hs ++ [f h]
    | none => hs
  | .readIlm _ => hs
  | .readAmp _ => hs

/-- coefficients of all objects after a history -/
def coeffs (hs : List (Harm ℝ)) (as : List Act) : List (Harm ℝ) := as.foldl coeffStep hs

/-- the action is a read of the complex form of object `i` -/
def Act.isReadIlm (i : ℕ) : Act → Prop
  | .readIlm j => j = i
  | _ => False

/-- the action is a read of the amplitude of object `i` -/
def Act.isReadAmp (i : ℕ) : Act → Prop
  | .readAmp j => j = i
  | _ => False

/-- no cached values -/
def Fresh (os : List Obj) : Prop := ∀ o ∈ os, o.ilm = none ∧ o.amp = none

/-! ## proofs -/

theorem run_append (os : List Obj) (a b : List Act) : run os (a ++ b) = run (run os a) b := by
  induction a generalizing os with
  | nil => rfl
  | cons x a ih => exact ih _

theorem act_coeffs (os : List Obj) (a : Act) :
    (act os a).1.map Obj.h = coeffStep (os.map Obj.h) a := by
  cases a with
  | modify i f =>
    simp only [act, coeffStep]
    apply List.ext_getElem?
    intro j
    simp only [List.getElem?_map, List.getElem?_modify]
    cases os[j]? with
    | none => simp
    | some o => by_cases hj : i = j <;> simp [hj]
  | derive i f =>
    simp only [act, coeffStep, List.getElem?_map]
    cases os[i]? <;> simp
  | readIlm i =>
    simp only [act, coeffStep]
    rcases h : os[i]? with _ | o
    · rfl
    · rcases h' : o.ilm with _ | v
      · simp only [h']
        apply List.ext_getElem?
        intro j
        simp only [List.getElem?_map, List.getElem?_set]
        by_cases hj : i = j
        · subst hj
          have : i < os.length := (List.getElem?_eq_some_iff.1 h).1
          rw [h]; simp [this]
        · simp [hj]
      · simp only [h']
  | readAmp i =>
    simp only [act, coeffStep]
    rcases h : os[i]? with _ | o
    · rfl
    · rcases h' : o.amp with _ | v
      · simp only [h']
        apply List.ext_getElem?
        intro j
        simp only [List.getElem?_map, List.getElem?_set]
        by_cases hj : i = j
        · subst hj
          have : i < os.length := (List.getElem?_eq_some_iff.1 h).1
          rw [h]; simp [this]
        · simp [hj]
      · simp only [h']

/-- C23: reading a cached property never changes coefficients. -/
theorem run_coeffs (os : List Obj) (as : List Act) :
    (run os as).map Obj.h = coeffs (os.map Obj.h) as := by
  induction as generalizing os with
  | nil => rfl
  | cons a as ih =>
    simp only [run, coeffs, List.foldl_cons]
    rw [ih, act_coeffs]; rfl

/-- the value cached for object `i` -/
def cachedIlm (os : List Obj) (i : ℕ) : Option (ℕ → ℕ → ℕ → ℂ) := (os[i]?).bind Obj.ilm
/-- the value cached for object `i` -/
def cachedAmp (os : List Obj) (i : ℕ) : Option (ℕ → ℕ → ℝ) := (os[i]?).bind Obj.amp

theorem act_ilm_none (os : List Obj) (a : Act) (i : ℕ) (h : cachedIlm os i = none)
    (ha : ¬ a.isReadIlm i) : cachedIlm (act os a).1 i = none := by
  unfold cachedIlm at *
  cases a with
  | modify j f =>
    simp only [act, List.getElem?_modify]
    cases ho : os[i]? with
    | none => simp
    | some o => rw [ho] at h; by_cases hj : j = i <;> simp_all
  | derive j f =>
    simp only [act]
    cases ho : os[j]? with
    | none => exact h
    | some o =>
      simp only
      rcases Nat.lt_trichotomy i os.length with hl | hl | hl
      · rw [List.getElem?_append_left hl]; exact h
      · subst hl; simp
      · rw [List.getElem?_eq_none (by simp; omega)]; rfl
  | readIlm j =>
    simp only [act]
    have hij : j ≠ i := ha
    rcases h1 : os[j]? with _ | o
    · exact h
    · rcases h2 : o.ilm with _ | v
      · simp only [h2, List.getElem?_set, hij, if_false]; exact h
      · simp only [h2]; exact h
  | readAmp j =>
    simp only [act]
    rcases h1 : os[j]? with _ | o
    · exact h
    · rcases h2 : o.amp with _ | v
      · simp only [h2, List.getElem?_set]
        by_cases hij : j = i
        · subst hij
          have : j < os.length := (List.getElem?_eq_some_iff.1 h1).1
          simp only [if_true, this]
          rw [h1] at h; exact h
        · simp only [hij, if_false]; exact h
      · simp only [h2]; exact h

theorem act_ilm_some (os : List Obj) (a : Act) (i : ℕ) (v) (h : cachedIlm os i = some v) :
    cachedIlm (act os a).1 i = some v := by
  unfold cachedIlm at *
  have hi : i < os.length := by
    by_contra hc
    rw [List.getElem?_eq_none (by omega)] at h; simp at h
  cases a with
  | modify j f =>
    simp only [act, List.getElem?_modify]
    cases ho : os[i]? with
    | none => rw [ho] at h; simp at h
    | some o => rw [ho] at h; by_cases hj : j = i <;> simp_all
  | derive j f =>
    simp only [act]
    cases ho : os[j]? with
    | none => exact h
    | some o => simp only; rw [List.getElem?_append_left hi]; exact h
  | readIlm j =>
    simp only [act]
    rcases h1 : os[j]? with _ | o
    · exact h
    · rcases h2 : o.ilm with _ | v'
      · simp only [h2, List.getElem?_set]
        by_cases hij : j = i
        · subst hij; rw [h1] at h; simp [h2] at h
        · simp only [hij, if_false]; exact h
      · simp only [h2]; exact h
  | readAmp j =>
    simp only [act]
    rcases h1 : os[j]? with _ | o
    · exact h
    · rcases h2 : o.amp with _ | v'
      · simp only [h2, List.getElem?_set]
        by_cases hij : j = i
        · subst hij; simp only [if_true, hi]; rw [h1] at h; exact h
        · simp only [hij, if_false]; exact h
      · simp only [h2]; exact h

theorem act_amp_none (os : List Obj) (a : Act) (i : ℕ) (h : cachedAmp os i = none)
    (ha : ¬ a.isReadAmp i) : cachedAmp (act os a).1 i = none := by
  unfold cachedAmp at *
  cases a with
  | modify j f =>
    simp only [act, List.getElem?_modify]
    cases ho : os[i]? with
    | none => simp
    | some o => rw [ho] at h; by_cases hj : j = i <;> simp_all
  | derive j f =>
    simp only [act]
    cases ho : os[j]? with
    | none => exact h
    | some o =>
      simp only
      rcases Nat.lt_trichotomy i os.length with hl | hl | hl
      · rw [List.getElem?_append_left hl]; exact h
      · subst hl; simp
      · rw [List.getElem?_eq_none (by simp; omega)]; rfl
  | readAmp j =>
    simp only [act]
    have hij : j ≠ i := ha
    rcases h1 : os[j]? with _ | o
    · exact h
    · rcases h2 : o.amp with _ | v
      · simp only [h2, List.getElem?_set, hij, if_false]; exact h
      · simp only [h2]; exact h
  | readIlm j =>
    simp only [act]
    rcases h1 : os[j]? with _ | o
    · exact h
    · rcases h2 : o.ilm with _ | v
      · simp only [h2, List.getElem?_set]
        by_cases hij : j = i
        · subst hij
          have : j < os.length := (List.getElem?_eq_some_iff.1 h1).1
          simp only [if_true, this]
          rw [h1] at h; exact h
        · simp only [hij, if_false]; exact h
      · simp only [h2]; exact h

theorem act_amp_some (os : List Obj) (a : Act) (i : ℕ) (v) (h : cachedAmp os i = some v) :
    cachedAmp (act os a).1 i = some v := by
  unfold cachedAmp at *
  have hi : i < os.length := by
    by_contra hc
    rw [List.getElem?_eq_none (by omega)] at h; simp at h
  cases a with
  | modify j f =>
    simp only [act, List.getElem?_modify]
    cases ho : os[i]? with
    | none => rw [ho] at h; simp at h
    | some o => rw [ho] at h; by_cases hj : j = i <;> simp_all
  | derive j f =>
    simp only [act]
    cases ho : os[j]? with
    | none => exact h
    | some o => simp only; rw [List.getElem?_append_left hi]; exact h
  | readAmp j =>
    simp only [act]
    rcases h1 : os[j]? with _ | o
    · exact h
    · rcases h2 : o.amp with _ | v'
      · simp only [h2, List.getElem?_set]
        by_cases hij : j = i
        · subst hij; rw [h1] at h; simp [h2] at h
        · simp only [hij, if_false]; exact h
      · simp only [h2]; exact h
  | readIlm j =>
    simp only [act]
    rcases h1 : os[j]? with _ | o
    · exact h
    · rcases h2 : o.ilm with _ | v'
      · simp only [h2, List.getElem?_set]
        by_cases hij : j = i
        · subst hij; simp only [if_true, hi]; rw [h1] at h; exact h
        · simp only [hij, if_false]; exact h
      · simp only [h2]; exact h

theorem run_ilm_none (os : List Obj) (as : List Act) (i : ℕ) (h : cachedIlm os i = none)
    (ha : ∀ a ∈ as, ¬ a.isReadIlm i) : cachedIlm (run os as) i = none := by
  induction as generalizing os with
  | nil => exact h
  | cons a as ih =>
    exact ih _ (act_ilm_none os a i h (ha a (by simp))) (fun b hb => ha b (by simp [hb]))

theorem run_ilm_some (os : List Obj) (as : List Act) (i : ℕ) (v) (h : cachedIlm os i = some v) :
    cachedIlm (run os as) i = some v := by
  induction as generalizing os with
  | nil => exact h
  | cons a as ih => exact ih _ (act_ilm_some os a i v h)

theorem run_amp_none (os : List Obj) (as : List Act) (i : ℕ) (h : cachedAmp os i = none)
    (ha : ∀ a ∈ as, ¬ a.isReadAmp i) : cachedAmp (run os as) i = none := by
  induction as generalizing os with
  | nil => exact h
  | cons a as ih =>
    exact ih _ (act_amp_none os a i h (ha a (by simp))) (fun b hb => ha b (by simp [hb]))

theorem run_amp_some (os : List Obj) (as : List Act) (i : ℕ) (v) (h : cachedAmp os i = some v) :
    cachedAmp (run os as) i = some v := by
  induction as generalizing os with
  | nil => exact h
  | cons a as ih => exact ih _ (act_amp_some os a i v h)

theorem fresh_none (os : List Obj) (hf : Fresh os) (i : ℕ) :
    cachedIlm os i = none ∧ cachedAmp os i = none := by
  unfold cachedIlm cachedAmp
  rcases h : os[i]? with _ | o
  · simp
  · have := hf o (List.mem_of_getElem? h); simp [this]

/-- C23: the first read of `ilm` of an object, after any history not reading it before, is
`clm - i slm` of its current coefficients. Copies and other derived objects are included: they
have never been read. -/
theorem ilm_first_read (os : List Obj) (hf : Fresh os) (pre : List Act) (i : ℕ)
    (hpre : ∀ a ∈ pre, ¬ a.isReadIlm i) (h : Harm ℝ)
    (hi : (coeffs (os.map Obj.h) pre)[i]? = some h) :
    (act (run os pre) (.readIlm i)).2 =
      .ilm fun l m t => (h.clm l m t : ℂ) - (h.slm l m t : ℂ) * Complex.I := by
  have hn := run_ilm_none os pre i (fresh_none os hf i).1 hpre
  rw [← run_coeffs, List.getElem?_map] at hi
  unfold cachedIlm at hn
  rcases ho : (run os pre)[i]? with _ | o
  · rw [ho] at hi; simp at hi
  · rw [ho] at hi hn
    simp only [Option.map_some, Option.some.injEq, Option.bind_some] at hi hn
    simp only [act, ho, hn]
    rw [← hi]; rfl

/-- C23: every later read of `ilm` returns the value of the first read, whatever has been done in
between: after a modification in place the value is stale. -/
theorem ilm_later_read (os : List Obj) (hf : Fresh os) (pre mid : List Act) (i : ℕ)
    (hpre : ∀ a ∈ pre, ¬ a.isReadIlm i) (h : Harm ℝ)
    (hi : (coeffs (os.map Obj.h) pre)[i]? = some h) :
    (act (run os (pre ++ .readIlm i :: mid)) (.readIlm i)).2 =
      .ilm fun l m t => (h.clm l m t : ℂ) - (h.slm l m t : ℂ) * Complex.I := by
  have hn := run_ilm_none os pre i (fresh_none os hf i).1 hpre
  rw [← run_coeffs, List.getElem?_map] at hi
  have hs : cachedIlm (act (run os pre) (.readIlm i)).1 i = some (complexForm h) := by
    unfold cachedIlm at hn ⊢
    rcases ho : (run os pre)[i]? with _ | o
    · rw [ho] at hi; simp at hi
    · rw [ho] at hi hn
      simp only [Option.map_some, Option.some.injEq, Option.bind_some] at hi hn
      have : i < (run os pre).length := (List.getElem?_eq_some_iff.1 ho).1
      simp only [act, ho, hn, List.getElem?_set, if_true, this, hi, Option.bind_some]
  have hr := run_ilm_some _ mid i _ hs
  rw [run_append]
  show (act (run (act (run os pre) (.readIlm i)).1 mid) (.readIlm i)).2 = _
  unfold cachedIlm at hr
  rcases ho : (run (act (run os pre) (.readIlm i)).1 mid)[i]? with _ | o
  · rw [ho] at hr; simp at hr
  · rw [ho, Option.bind_some] at hr
    generalize hg : run (act (run os pre) (.readIlm i)).1 mid = os' at ho
    simp only [act, ho, hr]; rfl

/-- C25: the property `amplitude` is the degree amplitude of the current coefficients. -/
theorem amplitude_eq (h : Harm ℝ) (l t : ℕ) : amplitude h l t = degAmp h.clm h.slm h.mmax l t := rfl

/-- C23: first read of `amplitude`. -/
theorem amp_first_read (os : List Obj) (hf : Fresh os) (pre : List Act) (i : ℕ)
    (hpre : ∀ a ∈ pre, ¬ a.isReadAmp i) (h : Harm ℝ)
    (hi : (coeffs (os.map Obj.h) pre)[i]? = some h) :
    (act (run os pre) (.readAmp i)).2 = .amp fun l t => degAmp h.clm h.slm h.mmax l t := by
  have hn := run_amp_none os pre i (fresh_none os hf i).2 hpre
  rw [← run_coeffs, List.getElem?_map] at hi
  unfold cachedAmp at hn
  rcases ho : (run os pre)[i]? with _ | o
  · rw [ho] at hi; simp at hi
  · rw [ho] at hi hn
    simp only [Option.map_some, Option.some.injEq, Option.bind_some] at hi hn
    simp only [act, ho, hn]
    rw [← hi]; rfl

/-- C23: later reads of `amplitude` return the first value. -/
theorem amp_later_read (os : List Obj) (hf : Fresh os) (pre mid : List Act) (i : ℕ)
    (hpre : ∀ a ∈ pre, ¬ a.isReadAmp i) (h : Harm ℝ)
    (hi : (coeffs (os.map Obj.h) pre)[i]? = some h) :
    (act (run os (pre ++ .readAmp i :: mid)) (.readAmp i)).2 =
      .amp fun l t => degAmp h.clm h.slm h.mmax l t := by
  have hn := run_amp_none os pre i (fresh_none os hf i).2 hpre
  rw [← run_coeffs, List.getElem?_map] at hi
  have hs : cachedAmp (act (run os pre) (.readAmp i)).1 i = some (amplitude h) := by
    unfold cachedAmp at hn ⊢
    rcases ho : (run os pre)[i]? with _ | o
    · rw [ho] at hi; simp at hi
    · rw [ho] at hi hn
      simp only [Option.map_some, Option.some.injEq, Option.bind_some] at hi hn
      have : i < (run os pre).length := (List.getElem?_eq_some_iff.1 ho).1
      simp only [act, ho, hn, List.getElem?_set, if_true, this, hi, Option.bind_some]
  have hr := run_amp_some _ mid i _ hs
  rw [run_append]
  show (act (run (act (run os pre) (.readAmp i)).1 mid) (.readAmp i)).2 = _
  unfold cachedAmp at hr
  rcases ho : (run (act (run os pre) (.readAmp i)).1 mid)[i]? with _ | o
  · rw [ho] at hr; simp at hr
  · rw [ho, Option.bind_some] at hr
    generalize hg : run (act (run os pre) (.readAmp i)).1 mid = os' at ho
    simp only [act, ho, hr]; rfl

/-- C23 (deviation): reading `ilm`, scaling the coefficients of the object in place by 2 and
reading again gives a value that is not the complex form of the current coefficients, unless all
coefficients are zero. -/
theorem ilm_stale (h : Harm ℝ) (l m t : ℕ) (hne : h.clm l m t ≠ 0) :
    let double : Harm ℝ → Harm ℝ := fun g => scale g 2
    let os : List Obj := [⟨h, none, none⟩]
    ∃ v, (act (run os [.readIlm 0, .modify 0 double]) (.readIlm 0)).2 = .ilm v ∧
      coeffs [h] [.readIlm 0, .modify 0 double] = [double h] ∧
      v l m t ≠ complexForm (double h) l m t := by
  refine ⟨_, ilm_later_read [⟨h, none, none⟩] (by simp [Fresh]) [] [.modify 0 _] 0 (by simp) h rfl,
    rfl, ?_⟩
  intro he
  have := congrArg Complex.re he
  simp [complexForm, scale] at this
  exact hne (by linarith)

/-! ## C25 -/

/-- C25: the degree amplitude is defined exactly when the requested degree and order are within
the arrays, and then is the list of `sqrt (Σ_{m ≤ MMAX} clm² + slm²)` for the degrees up to
`LMAX`. -/
theorem degreeAmplitude_spec (lp1 mp1 : ℕ) (clm slm : ℕ → ℕ → ℕ → ℝ) (L M : ℕ) :
    (L < lp1 ∧ M < mp1 → ∃ amp, degreeAmplitude lp1 mp1 clm slm (some L) (some M) = .ok amp ∧
      amp.length = L + 1 ∧ ∀ l, (hl : l < amp.length) → ∀ t, amp[l] t =
        Real.sqrt (∑ m ∈ Finset.range (M + 1), (clm l m t ^ 2 + slm l m t ^ 2))) ∧
    (¬ (L < lp1 ∧ M < mp1) → degreeAmplitude lp1 mp1 clm slm (some L) (some M) = .error .indexError) ∧
    (0 < lp1 → 0 < mp1 → degreeAmplitude lp1 mp1 clm slm none none =
      degreeAmplitude lp1 mp1 clm slm (some (lp1 - 1)) (some (mp1 - 1))) := by
  refine ⟨?_, ?_, fun _ _ => rfl⟩
  · intro h
    refine ⟨_, by unfold degreeAmplitude; simp only [Option.getD_some]; rw [if_pos h], by simp, ?_⟩
    intro l hl t
    simp only [List.getElem_map, List.getElem_range, degAmp]
    rw [sum_map_range]
  · intro h; unfold degreeAmplitude; simp only [Option.getD_some]; rw [if_neg h]

theorem degAmp_eq (clm slm : ℕ → ℕ → ℕ → ℝ) (M l t : ℕ) :
    degAmp clm slm M l t = Real.sqrt (∑ m ∈ Finset.range (M + 1), (clm l m t ^ 2 + slm l m t ^ 2)) := by
  unfold degAmp
  rw [sum_map_range]

/-- C25: for coefficients that vanish above the diagonal the sum is over the orders `m ≤ l`. -/
theorem degAmp_triangle (clm slm : ℕ → ℕ → ℕ → ℝ) (M l t : ℕ) (hl : l ≤ M)
    (hz : ∀ m, l < m → clm l m t = 0 ∧ slm l m t = 0) :
    degAmp clm slm M l t =
      Real.sqrt (∑ m ∈ Finset.range (l + 1), (clm l m t ^ 2 + slm l m t ^ 2)) := by
  rw [degAmp_eq]
  congr 1
  symm
  apply Finset.sum_subset
  · intro m; simp only [Finset.mem_range]; omega
  · intro m _ hm
    simp only [Finset.mem_range, not_lt] at hm
    have := hz m (by omega)
    simp [this]

/-- C25: nonnegative. -/
theorem degAmp_nonneg (clm slm : ℕ → ℕ → ℕ → ℝ) (M l t : ℕ) : 0 ≤ degAmp clm slm M l t :=
  Real.sqrt_nonneg _

/-- C25: zero exactly when all coefficients of the degree are zero. -/
theorem degAmp_eq_zero (clm slm : ℕ → ℕ → ℕ → ℝ) (M l t : ℕ) :
    degAmp clm slm M l t = 0 ↔ ∀ m ≤ M, clm l m t = 0 ∧ slm l m t = 0 := by
  rw [degAmp_eq, Real.sqrt_eq_zero (Finset.sum_nonneg fun m _ => by positivity),
    Finset.sum_eq_zero_iff_of_nonneg fun m _ => by positivity]
  constructor
  · intro h m hm
    have := h m (by simp; omega)
    constructor <;> nlinarith [sq_nonneg (clm l m t), sq_nonneg (slm l m t)]
  · intro h m hm
    have := h m (by simp at hm; omega)
    simp [this]

/-- C25: scaling the coefficients by `a` scales the amplitudes by `|a|`. -/
theorem degAmp_scale (clm slm : ℕ → ℕ → ℕ → ℝ) (M l t : ℕ) (a : ℝ) :
    degAmp (fun l m t => a * clm l m t) (fun l m t => a * slm l m t) M l t =
      |a| * degAmp clm slm M l t := by
  rw [degAmp_eq, degAmp_eq, ← Real.sqrt_sq_eq_abs, ← Real.sqrt_mul (sq_nonneg a), Finset.mul_sum]
  congr 1
  exact Finset.sum_congr rfl fun m _ => by ring

/-- C25: triangle inequality. -/
theorem degAmp_add (c1 s1 c2 s2 : ℕ → ℕ → ℕ → ℝ) (M l t : ℕ) :
    degAmp (fun l m t => c1 l m t + c2 l m t) (fun l m t => s1 l m t + s2 l m t) M l t ≤
      degAmp c1 s1 M l t + degAmp c2 s2 M l t := by
  let v (c s : ℕ → ℕ → ℕ → ℝ) : EuclideanSpace ℝ (Fin (M + 1) ⊕ Fin (M + 1)) :=
    WithLp.toLp 2 (Sum.elim (fun m => c l m t) (fun m => s l m t))
  have hv : ∀ c s, degAmp c s M l t = ‖v c s‖ := by
    intro c s
    rw [degAmp_eq, EuclideanSpace.norm_eq, Fintype.sum_sum_type, Finset.sum_range,
      Finset.sum_add_distrib]
    simp [v]
  rw [hv, hv, hv]
  refine le_trans (le_of_eq ?_) (norm_add_le _ _)
  congr 1
  ext i
  cases i <;> simp [v]

-- a history meeting the hypotheses: read, modify, copy, read the copy
example : Fresh [⟨⟨2, 2, none, fun _ _ _ => 1, fun _ _ _ => 2, [2003], [13]⟩, none, none⟩] ∧
    ∀ a ∈ [Act.readIlm 0, .modify 0 (fun g => scale g 3), .derive 0 id], ¬ a.isReadIlm 1 := by
  constructor
  · simp [Fresh]
  · simp [Act.isReadIlm]

end Verif.Harmonics
