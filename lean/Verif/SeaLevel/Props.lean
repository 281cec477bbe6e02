import Verif.SeaLevel.Lemmas

/-!
# Property C41: the sea level equation
-/
namespace Verif.SeaLevel
open Verif.Legendre Verif.Synthesis Verif.Units Verif.Analysis

/-! ## Specification -/

/-- area-weighted sum of a longitude-latitude field over the cells selected by `S`: the mass in grams
of a layer of `f` centimetres of water -/
noncomputable def layerMass (E : Earth) (a : Args) (S : ℕ → ℕ → Prop) [∀ i j, Decidable (S i j)]
    (f : ℕ → ℕ → ℝ) : ℝ :=
  rad_e E ^ 2 * ∑ i ∈ Finset.range a.nphi, ∑ j ∈ Finset.range a.nth,
    if S i j then f i j * (Real.sin (colat (a.glat j)) * stepRad a.glon * stepRad a.glat) else 0

/-- the supplied Legendre functions have `P_00 = 1`, or they are computed for latitudes from the south
to the north pole -/
def LegendreOk (scalef : ℝ) (a : Args) : Prop :=
  (∃ P, a.PLM = some P ∧ ∀ j < a.nth, P 0 0 j = 1) ∨
    (a.PLM = none ∧ scalef ≠ 0 ∧ 2 ≤ a.LMAX ∧ ∀ j < a.nth, -90 ≤ a.glat j ∧ a.glat j ≤ 90)

/-- arguments for which the equation is well posed: a non-square grid of at least two by two cells,
Legendre functions as above, an ocean with area, no degree with `1 + k_l = 0` and, for polar motion
feedback, known tide and fluid Love numbers that differ -/
structure WellPosed (E : Earth) (scalef : ℝ) (a : Args) : Prop where
  radius : rad_e E ≠ 0
  nphi : 2 ≤ a.nphi
  nth : 2 ≤ a.nth
  shape : a.nphi ≠ a.nth
  legendre : LegendreOk scalef a
  scale : a.SCALE ≠ 0
  area : layerMass E a (fun _ _ => True) (fun i j => 1 - a.land i j) ≠ 0
  love : ∀ l ≤ a.LMAX, a.kl l ≠ -1
  polar : a.POLAR = true → 2 ≤ a.LMAX → ∃ k h f, bodyTide a.BODY = some (k, h) ∧ fluid a.FLUID = some f ∧ f ≠ k

/-- multiples of a load -/
def scaleLoad (s : ℝ) (load : CSlm) : CSlm := ⟨fun l m => s * load.clm l m, fun l m => s * load.slm l m⟩

/-- sum of two loads -/
def addLoad (x y : CSlm) : CSlm := ⟨fun l m => x.clm l m + y.clm l m, fun l m => x.slm l m + y.slm l m⟩

/-- response of the Earth to a load of degree `l`, order `m`: `1 + k_l - h_l`, and for degree 2 order 1
with polar motion feedback (body tide Love numbers `k2`, `h2`, fluid Love number `kf`) the additional
`(1 + k2 - h2) (1 + k_2) / (kf - k2)` -/
noncomputable def response (a : Args) (k2 h2 kf : ℝ) (l m : ℕ) : ℝ :=
  1 + a.kl l - a.hl l + if a.POLAR = true ∧ l = 2 ∧ m = 1 then (1 + k2 - h2) * (1 + a.kl 2) / (kf - k2) else 0

/-- height of the sea surface above the sea floor caused by the water layer with harmonics `w` and by
the load: `sum_lm response_lm (3 w_lm / (rho_e (2l+1)) + rad_e load_lm / (1 + k_l)) Y_lm` -/
noncomputable def surface (E : Earth) (a : Args) (k2 h2 kf : ℝ) (w load : CSlm) (lon lat : ℝ) : ℝ :=
  synth a.LMAX (fun _ => 1)
    (fun l m => response a k2 h2 kf l m * (3 * w.clm l m / (rho_e E * (2 * l + 1)) + rad_e E * load.clm l m / (1 + a.kl l)))
    (fun l m => response a k2 h2 kf l m * (3 * w.slm l m / (rho_e E * (2 * l + 1)) + rad_e E * load.slm l m / (1 + a.kl l)))
    (Real.cos (colat lat)) (Real.sin (colat lat)) (lon * Real.pi / 180)

/-- sum of the moduli of all coefficients up to degree `L` -/
noncomputable def modulus (L : ℕ) (y : CSlm) : ℝ :=
  ∑ l ∈ Finset.range (L + 1), ∑ m ∈ Finset.range (l + 1), Real.sqrt (y.clm l m ^ 2 + y.slm l m ^ 2)

/-! ## Glue between the arguments and the configuration -/

/-- the configuration made from the arguments -/
def conf (E : Earth) (a : Args) (k h f : ℝ) (p : ℕ → ℕ → ℕ → ℝ) : Conf :=
  ⟨E, a.nphi, a.nth, a.glon, a.glat, a.land, a.LMAX, a.hl, a.kl, a.POLAR, k, h, f, a.SCALE, p⟩

open Classical in
theorem seaLevel_some (E : Earth) (tol scalef : ℝ) (a : Args) (load : CSlm) (sea : ℕ → ℕ → ℝ) :
    seaLevel E tol scalef a load = some sea ↔ ∃ k h f p r, polarLove a = some (k, h, f) ∧
      plmAll tol scalef a.LMAX a.LMAX a.glat a.PLM = some p ∧ ¬ undefined (conf E a k h f p) ∧
      solve (conf E a k h f p) load a.ITERATIONS = some r ∧ finish (conf E a k h f p) a.FILL r = some sea := by
  unfold seaLevel
  rcases h1 : polarLove a with _ | ⟨k, h, f⟩
  · simp
  · rcases h2 : plmAll tol scalef a.LMAX a.LMAX a.glat a.PLM with _ | p
    · simp
    · dsimp only
      change (if undefined (conf E a k h f p) then none else
        match solve (conf E a k h f p) load a.ITERATIONS with
        | none => none
        | some r => finish (conf E a k h f p) a.FILL r) = some sea ↔ _
      split_ifs with hu
      · constructor
        · simp
        · rintro ⟨k', h', f', p', r, e1, e2, e3, _⟩
          simp only [Option.some.injEq, Prod.mk.injEq] at e1 e2
          obtain ⟨rfl, rfl, rfl⟩ := e1; subst e2; exact absurd hu e3
      · rcases h3 : solve (conf E a k h f p) load a.ITERATIONS with _ | r
        · constructor
          · simp
          · rintro ⟨k', h', f', p', r, e1, e2, e3, e4, _⟩
            simp only [Option.some.injEq, Prod.mk.injEq] at e1 e2
            obtain ⟨rfl, rfl, rfl⟩ := e1; subst e2; rw [h3] at e4; simp at e4
        · constructor
          · intro e; exact ⟨k, h, f, p, r, rfl, rfl, hu, h3, e⟩
          · rintro ⟨k', h', f', p', r', e1, e2, e3, e4, e5⟩
            simp only [Option.some.injEq, Prod.mk.injEq] at e1 e2
            obtain ⟨rfl, rfl, rfl⟩ := e1; subst e2; rw [h3, Option.some.injEq] at e4; subst e4; exact e5

theorem dims_of_defined (c : Conf) (h : ¬ undefined c) : 2 ≤ c.nphi ∧ 2 ≤ c.nth := by
  by_contra hd
  apply h
  right; right
  intro y hy
  rw [transform_eq, if_neg hd] at hy
  simp at hy

theorem area_of_defined (c : Conf) (h : ¬ undefined c) : (coeffs c (ocean c)).clm 0 0 ≠ 0 := by
  intro e
  apply h
  right; right
  intro y hy
  rw [transform_eq, if_pos (dims_of_defined c h), Option.some.injEq] at hy
  rw [← hy, e]

theorem legendre_weight (tol scalef : ℝ) (a : Args) (hl : LegendreOk scalef a) (p : ℕ → ℕ → ℕ → ℝ)
    (hp : plmAll tol scalef a.LMAX a.LMAX a.glat a.PLM = some p) (j : ℕ) (hj : j < a.nth) :
    p 0 0 j * Real.sin (colat (a.glat j)) = Real.sin (colat (a.glat j)) := by
  rcases hl with ⟨P, e, h⟩ | ⟨e, hs, hL, hlat⟩
  · rw [e] at hp; simp only [plmAll, Option.some.injEq] at hp; rw [← hp, h j hj, one_mul]
  · rw [e] at hp
    obtain ⟨q, hq, hv⟩ := plmAll_interior tol scalef hs a.LMAX a.LMAX hL le_rfl a.glat
    rw [hq, Option.some.injEq] at hp
    subst hp
    by_cases h1 : a.glat j = 90
    · have : Real.sin (colat (a.glat j)) = 0 := by rw [h1]; simp [colat]
      rw [this, mul_zero]
    · by_cases h2 : a.glat j = -90
      · have : Real.sin (colat (a.glat j)) = 0 := by
          rw [h2]; unfold colat; rw [show (90 - -90) * Real.pi / 180 = Real.pi by ring, Real.sin_pi]
        rw [this, mul_zero]
      · rw [hv 0 0 j (Nat.zero_le _) (lt_of_le_of_ne (hlat j hj).1 (Ne.symm h2)) (lt_of_le_of_ne (hlat j hj).2 h1)]
        unfold trueP; rw [Plm_zero_zero, one_mul]

theorem coeffs_zero (E : Earth) (tol scalef : ℝ) (a : Args) (hl : LegendreOk scalef a) (hne : a.nphi ≠ a.nth)
    (k h f : ℝ) (p : ℕ → ℕ → ℕ → ℝ) (hp : plmAll tol scalef a.LMAX a.LMAX a.glat a.PLM = some p) (g : ℕ → ℕ → ℝ) :
    rad_e E ^ 2 * (4 * Real.pi * (coeffs (conf E a k h f p) g).clm 0 0) = layerMass E a (fun _ _ => True) g := by
  have := Real.pi_pos
  unfold layerMass coeffs
  simp only [if_true]
  congr 1
  rw [gridCoeff_eq, if_pos ⟨Nat.zero_le _, Nat.zero_le _, Nat.zero_le _⟩]
  rw [← mul_assoc, mul_one_div_cancel (by positivity), one_mul]
  unfold cellSum
  apply Finset.sum_congr rfl; intro i _
  apply Finset.sum_congr rfl; intro j hj
  have hw := legendre_weight tol scalef a hl p hp j (Finset.mem_range.mp hj)
  rw [seen_eq (conf E a k h f p) hne]
  simp only [conf, Nat.cast_zero, zero_mul, Real.cos_zero, one_mul]
  linear_combination (g i j * stepRad a.glon * stepRad a.glat) * hw

/-- the state behind a returned field -/
theorem seaLevel_state (E : Earth) (tol scalef : ℝ) (a : Args) (load : CSlm) (sea : ℕ → ℕ → ℝ)
    (hs : seaLevel E tol scalef a load = some sea) :
    ∃ k h f p n, polarLove a = some (k, h, f) ∧
      plmAll tol scalef a.LMAX a.LMAX a.glat a.PLM = some p ∧ ¬ undefined (conf E a k h f p) ∧
      n + 1 ≤ a.ITERATIONS.toNat ∧
      ∀ i j, sea i j = if a.FILL ≠ 0 ∧ a.land i j ≠ 0 then a.FILL else
        sSeq (conf E a k h f p) (coeffs (conf E a k h f p) (ocean (conf E a k h f p))) load
          (h0 (conf E a k h f p) load) n i j := by
  obtain ⟨k, h, f, p, r, h1, h2, h3, h4, h5⟩ := (seaLevel_some E tol scalef a load sea).mp hs
  obtain ⟨e1, e2, _, _⟩ := (solve_spec _ (dims_of_defined _ h3) load a.ITERATIONS r).mp h4
  unfold finish at h5
  split_ifs at h5 with h0
  rw [Option.some.injEq] at h5
  obtain ⟨n, hn⟩ := Nat.exists_eq_succ_of_ne_zero h0
  refine ⟨k, h, f, p, n, h1, h2, h3, by omega, ?_⟩
  intro i j
  rw [← h5, e1, hn]
  rfl

/-! ## C41 -/

/-- C41: for every load, land function and set of Love numbers for which a field is returned, whatever
the number of iterations and whether or not they converged, the water in the returned field balances
the load: its mass is minus the mass of the load (`C_00` times the mass of the Earth) -/
theorem seaLevel_mass (E : Earth) (tol scalef : ℝ) (a : Args) (load : CSlm) (sea : ℕ → ℕ → ℝ)
    (hE : rad_e E ≠ 0) (hl : LegendreOk scalef a) (hne : a.nphi ≠ a.nth) (hF : a.FILL = 0)
    (hs : seaLevel E tol scalef a load = some sea) :
    layerMass E a (fun _ _ => True) sea = -(mass E * load.clm 0 0) := by
  obtain ⟨k, h, f, p, n, h1, h2, h3, _, hv⟩ := seaLevel_state E tol scalef a load sea hs
  have he : sea = sSeq (conf E a k h f p) (coeffs (conf E a k h f p) (ocean (conf E a k h f p))) load
          (h0 (conf E a k h f p) load) n := by
    funext i j; rw [hv, if_neg (by rintro ⟨g, _⟩; exact g hF)]
  rw [he, ← coeffs_zero E tol scalef a hl hne k h f p h2]
  set c := conf E a k h f p with hc
  have hz := nextH_zero c (coeffs c (ocean c)) load (hSeq c (coeffs c (ocean c)) load (h0 c load) n) (area_of_defined c h3)
  rw [nextH_coeffs] at hz
  change (coeffs c (sSeq c (coeffs c (ocean c)) load (h0 c load) n)).clm 0 0 = _ at hz
  rw [hz]
  have := Real.pi_pos
  unfold tmass mass
  change rad_e E ^ 2 * (4 * Real.pi * (-(4 * Real.pi * rad_e E ^ 3 * rho_e E * load.clm 0 0 / 3) / rad_e E ^ 2 / (4 * Real.pi))) = _
  field_simp

/-- C41: with a fill value and a land function of zeros and ones the water in the ocean cells still
balances the load -/
theorem seaLevel_mass_fill (E : Earth) (tol scalef : ℝ) (a : Args) (load : CSlm) (sea : ℕ → ℕ → ℝ)
    (hE : rad_e E ≠ 0) (hl : LegendreOk scalef a) (hne : a.nphi ≠ a.nth)
    (h01 : ∀ i j, a.land i j = 0 ∨ a.land i j = 1) [∀ i j, Decidable (a.land i j = 0)]
    (hs : seaLevel E tol scalef a load = some sea) :
    layerMass E a (fun i j => a.land i j = 0) sea = -(mass E * load.clm 0 0) := by
  obtain ⟨k, h, f, p, n, h1, h2, h3, hn, hv⟩ := seaLevel_state E tol scalef a load sea hs
  set c := conf E a k h f p with hc
  set S := sSeq c (coeffs c (ocean c)) load (h0 c load) n with hS
  have e : layerMass E a (fun i j => a.land i j = 0) sea = layerMass E a (fun _ _ => True) S := by
    unfold layerMass
    congr 1
    apply Finset.sum_congr rfl; intro i _
    apply Finset.sum_congr rfl; intro j _
    rw [if_pos trivial]
    split_ifs with g
    · rw [hv, if_neg (by rintro ⟨_, q⟩; exact q g)]
    · have g1 : a.land i j = 1 := (h01 i j).resolve_left g
      have : S i j = 0 := by
        have ho : ocean c i j = 0 := by change 1 - a.land i j = 0; rw [g1]; ring
        rw [hS]; unfold sSeq rawField; rw [if_neg (by simpa using ho), ho]; ring
      rw [this, zero_mul]
  rw [e, ← coeffs_zero E tol scalef a hl hne k h f p h2]
  have hz := nextH_zero c (coeffs c (ocean c)) load (hSeq c (coeffs c (ocean c)) load (h0 c load) n) (area_of_defined c h3)
  rw [nextH_coeffs] at hz
  change (coeffs c S).clm 0 0 = _ at hz
  rw [hz]
  have := Real.pi_pos
  unfold tmass mass
  change rad_e E ^ 2 * (4 * Real.pi * (-(4 * Real.pi * rad_e E ^ 3 * rho_e E * load.clm 0 0 / 3) / rad_e E ^ 2 / (4 * Real.pi))) = _
  field_simp

/-- C41: over land (land function 1) the returned field is the fill value, zero by default -/
theorem seaLevel_land (E : Earth) (tol scalef : ℝ) (a : Args) (load : CSlm) (sea : ℕ → ℕ → ℝ)
    (hs : seaLevel E tol scalef a load = some sea) (i j : ℕ) (hland : a.land i j = 1) : sea i j = a.FILL := by
  obtain ⟨k, h, f, p, n, h1, h2, h3, hn, hv⟩ := seaLevel_state E tol scalef a load sea hs
  rw [hv]
  by_cases hF : a.FILL = 0
  · rw [if_neg (by rintro ⟨g, _⟩; exact g hF), hF]
    have ho : ocean (conf E a k h f p) i j = 0 := by change 1 - a.land i j = 0; rw [hland]; ring
    unfold sSeq rawField; rw [if_neg (by simpa using ho), ho]; ring
  · rw [if_pos ⟨hF, by rw [hland]; exact one_ne_zero⟩]

theorem transform_api (E : Earth) (tol scalef : ℝ) (a : Args) (k h f : ℝ) (p : ℕ → ℕ → ℕ → ℝ)
    (hp : plmAll tol scalef a.LMAX a.LMAX a.glat a.PLM = some p) (g : ℕ → ℕ → ℝ) :
    genHarmonics tol scalef ⟨a.nphi, a.nth, g⟩ a.nphi a.nth a.glon a.glat a.LMAX none a.PLM =
      transform (conf E a k h f p) g := by
  unfold transform genHarmonics
  simp only [Option.getD_none, hp]
  rfl

theorem surface_eq (E : Earth) (a : Args) (hL : 1 ≤ a.LMAX) (hsc : a.SCALE ≠ 0) (k h f : ℝ) (p : ℕ → ℕ → ℕ → ℝ)
    (load w : CSlm) (i j : ℕ) :
    rawField (conf E a k h f p) load w i j =
      if a.land i j ≠ 1 then surface E a k h f w load (a.glon i) (a.glat j) else 0 := by
  have hc : (ocean (conf E a k h f p) i j ≠ 0) ↔ a.land i j ≠ 1 := by
    change 1 - a.land i j ≠ 0 ↔ _
    rw [sub_ne_zero]; exact ne_comm
  unfold rawField
  simp only [hc]
  split_ifs
  · change clenshaw a.SCALE _ _ _ a.LMAX (a.glon i) (a.glat j) = _
    rw [clenshaw_correct a.SCALE hsc _ _ _ a.LMAX hL]
    unfold surface synth
    apply Finset.sum_congr rfl; intro l hl
    apply Finset.sum_congr rfl; intro m hm
    have h1 : l ≤ a.LMAX ∧ m ≤ l := by
      rw [Finset.mem_range] at hl hm; omega
    have ch : coefh (conf E a k h f p) l m = response a k h f l m * (3 / (rho_e E * (2 * l + 1))) := by
      unfold coefh response coefpmf
      rw [if_pos (show l ≤ (conf E a k h f p).LMAX ∧ m ≤ l from h1)]
      dsimp only
      by_cases q : a.POLAR = true ∧ l = 2 ∧ m = 1
      · rw [if_pos (show l = 2 ∧ (conf E a k h f p).POLAR = true ∧ m = 1 from ⟨q.2.1, q.1, q.2.2⟩), if_pos q]
        dsimp only [conf]
        simp only [div_eq_mul_inv, mul_inv]; ring
      · rw [if_neg (show ¬ (l = 2 ∧ (conf E a k h f p).POLAR = true ∧ m = 1) from fun g => q ⟨g.2.1, g.1, g.2.2⟩),
          if_neg q]
        dsimp only [conf]
        simp only [div_eq_mul_inv, mul_inv]; ring
    have cp : coefp (conf E a k h f p) l m = response a k h f l m * (1 / (1 + a.kl l)) := by
      unfold coefp response coefpmf
      rw [if_pos (show l ≤ (conf E a k h f p).LMAX ∧ m ≤ l from h1)]
      dsimp only
      by_cases q : a.POLAR = true ∧ l = 2 ∧ m = 1
      · rw [if_pos (show l = 2 ∧ (conf E a k h f p).POLAR = true ∧ m = 1 from ⟨q.2.1, q.1, q.2.2⟩), if_pos q]
        dsimp only [conf]
        rw [add_comm (a.kl l) 1]
        simp only [div_eq_mul_inv]; ring
      · rw [if_neg (show ¬ (l = 2 ∧ (conf E a k h f p).POLAR = true ∧ m = 1) from fun g => q ⟨g.2.1, g.1, g.2.2⟩),
          if_neg q]
        dsimp only [conf]
        rw [add_comm (a.kl l) 1]
        simp only [div_eq_mul_inv]; ring
    dsimp only
    rw [ch, cp]
    change 1 * Plm l m (Real.cos (colat (a.glat j))) (Real.sin (colat (a.glat j))) * ((_ + rad_e E * _ * _) * _ + (_ + rad_e E * _ * _) * _) = _
    simp only [div_eq_mul_inv, mul_inv]
    ring
  · rfl

theorem hSeq_field (E : Earth) (tol scalef : ℝ) (a : Args) (hE : rad_e E ≠ 0) (hl : LegendreOk scalef a)
    (hne : a.nphi ≠ a.nth) (k h f : ℝ) (p : ℕ → ℕ → ℕ → ℝ)
    (hp : plmAll tol scalef a.LMAX a.LMAX a.glat a.PLM = some p) (hu : ¬ undefined (conf E a k h f p))
    (load : CSlm) (n : ℕ) :
    ∃ g, hSeq (conf E a k h f p) (coeffs (conf E a k h f p) (ocean (conf E a k h f p))) load
        (h0 (conf E a k h f p) load) n = coeffs (conf E a k h f p) g ∧
      layerMass E a (fun _ _ => True) g = -(mass E * load.clm 0 0) ∧ ∀ i j, a.land i j = 1 → g i j = 0 := by
  set c := conf E a k h f p with hc
  have hA := area_of_defined c hu
  have hpi := Real.pi_pos
  cases n with
  | zero =>
    set b := -tmass c load / 1 / rad_e c.E ^ 2 / (4 * Real.pi * (coeffs c (ocean c)).clm 0 0) with hb
    refine ⟨fun i j => b * ocean c i j + 0 * ocean c i j, ?_, ?_, ?_⟩
    · rw [coeffs_lin]
      apply CSlm.ext' <;> intro l m <;> simp [hSeq, h0, scaleY, linY, hb]
    · rw [← coeffs_zero E tol scalef a hl hne k h f p hp, coeffs_lin]
      change rad_e E ^ 2 * (4 * Real.pi * (b * (coeffs c (ocean c)).clm 0 0 + 0 * _)) = _
      rw [hb]
      unfold tmass mass
      change rad_e E ^ 2 * (4 * Real.pi * (-(4 * Real.pi * rad_e E ^ 3 * rho_e E * load.clm 0 0 / 3) / 1 / rad_e E ^ 2 /
        (4 * Real.pi * (coeffs c (ocean c)).clm 0 0) * (coeffs c (ocean c)).clm 0 0 + 0 * _)) = _
      field_simp
      ring
    · intro i j hland
      have ho : ocean c i j = 0 := by change 1 - a.land i j = 0; rw [hland]; ring
      dsimp only; rw [ho]; ring
  | succ n =>
    refine ⟨sSeq c (coeffs c (ocean c)) load (h0 c load) n, ?_, ?_, ?_⟩
    · exact nextH_coeffs c load _
    · rw [← coeffs_zero E tol scalef a hl hne k h f p hp]
      have hz := nextH_zero c (coeffs c (ocean c)) load (hSeq c (coeffs c (ocean c)) load (h0 c load) n) hA
      rw [nextH_coeffs] at hz
      change (coeffs c (sSeq c (coeffs c (ocean c)) load (h0 c load) n)).clm 0 0 = _ at hz
      rw [hz]
      unfold tmass mass
      change rad_e E ^ 2 * (4 * Real.pi * (-(4 * Real.pi * rad_e E ^ 3 * rho_e E * load.clm 0 0 / 3) / rad_e E ^ 2 / (4 * Real.pi))) = _
      field_simp
    · intro i j hland
      have ho : ocean c i j = 0 := by change 1 - a.land i j = 0; rw [hland]; ring
      unfold sSeq rawField; rw [if_neg (by simpa using ho), ho]; ring

/-- the Love numbers handed to the polar motion feedback (spec of the defaults is `bodyTide`,
`fluid`); anything when there is no feedback -/
def PolarLove (a : Args) (k2 h2 kf : ℝ) : Prop :=
  a.POLAR = true ∧ 2 ≤ a.LMAX → bodyTide a.BODY = some (k2, h2) ∧ fluid a.FLUID = some kf

theorem polarLove_some (a : Args) (k h f : ℝ) (e : polarLove a = some (k, h, f)) : PolarLove a k h f := by
  intro hq
  unfold polarLove at e
  rw [if_pos hq] at e
  rcases h1 : bodyTide a.BODY with _ | ⟨x, y⟩ <;> rcases h2 : fluid a.FLUID with _ | z <;> rw [h1, h2] at e <;>
    simp only [reduceCtorEq, Option.some.injEq, Prod.mk.injEq] at e
  obtain ⟨rfl, rfl, rfl⟩ := e
  exact ⟨rfl, rfl⟩

/-- C41: the returned field is, over the ocean, the sea surface response to the load and to a water
layer `g` that vanishes over land and balances the load, plus a uniform shift, weighted by the ocean
function -/
theorem seaLevel_equation (E : Earth) (tol scalef : ℝ) (a : Args) (load : CSlm) (sea : ℕ → ℕ → ℝ)
    (hE : rad_e E ≠ 0) (hl : LegendreOk scalef a) (hne : a.nphi ≠ a.nth) (hL : 1 ≤ a.LMAX) (hsc : a.SCALE ≠ 0)
    (hs : seaLevel E tol scalef a load = some sea) :
    ∃ k2 h2 kf g w d, PolarLove a k2 h2 kf ∧ (∀ i j, a.land i j = 1 → g i j = 0) ∧
      layerMass E a (fun _ _ => True) g = -(mass E * load.clm 0 0) ∧
      genHarmonics tol scalef ⟨a.nphi, a.nth, g⟩ a.nphi a.nth a.glon a.glat a.LMAX none a.PLM = some w ∧
      ∀ i j, a.FILL = 0 ∨ a.land i j = 0 → a.land i j ≠ 1 →
        sea i j = surface E a k2 h2 kf w load (a.glon i) (a.glat j) + d * (1 - a.land i j) := by
  obtain ⟨k, h, f, p, n, h1, h2, h3, hn, hv⟩ := seaLevel_state E tol scalef a load sea hs
  obtain ⟨g, hg, hm, h0'⟩ := hSeq_field E tol scalef a hE hl hne k h f p h2 h3 load n
  refine ⟨k, h, f, g, coeffs (conf E a k h f p) g, shift (conf E a k h f p) (coeffs (conf E a k h f p) (ocean (conf E a k h f p))) load
    (coeffs (conf E a k h f p) g), polarLove_some a k h f h1, h0', hm, ?_, ?_⟩
  · rw [transform_api E tol scalef a k h f p h2, transform_eq, if_pos (dims_of_defined _ h3)]
  · intro i j hF hland
    rw [hv, if_neg]
    · unfold sSeq
      rw [hg, surface_eq E a hL hsc, if_pos hland]
      rfl
    · rintro ⟨q1, q2⟩
      rcases hF with hF | hF
      · exact q1 hF
      · exact q2 hF

theorem polarLove_wp (E : Earth) (scalef : ℝ) (a : Args) (hw : WellPosed E scalef a) :
    ∃ k h f, polarLove a = some (k, h, f) ∧ (a.POLAR = true → 2 ≤ a.LMAX → f ≠ k) := by
  unfold polarLove
  by_cases q : a.POLAR = true ∧ 2 ≤ a.LMAX
  · rw [if_pos q]
    obtain ⟨k, h, f, e1, e2, e3⟩ := hw.polar q.1 q.2
    exact ⟨k, h, f, by rw [e1, e2], fun _ _ => e3⟩
  · rw [if_neg q]; exact ⟨0, 0, 0, rfl, fun q1 q2 => absurd ⟨q1, q2⟩ q⟩

theorem wp_defined (E : Earth) (tol scalef : ℝ) (a : Args) (hw : WellPosed E scalef a) :
    ∃ k h f p, polarLove a = some (k, h, f) ∧ plmAll tol scalef a.LMAX a.LMAX a.glat a.PLM = some p ∧
      ¬ undefined (conf E a k h f p) := by
  obtain ⟨k, h, f, e1, e2⟩ := polarLove_wp E scalef a hw
  have : ∃ p, plmAll tol scalef a.LMAX a.LMAX a.glat a.PLM = some p := by
    rcases hw.legendre with ⟨P, e, _⟩ | ⟨e, hs, hL, _⟩
    · exact ⟨P, by rw [e]; rfl⟩
    · obtain ⟨q, hq, _⟩ := plmAll_interior tol scalef hs a.LMAX a.LMAX hL le_rfl a.glat
      exact ⟨q, by rw [e]; exact hq⟩
  obtain ⟨p, hp⟩ := this
  refine ⟨k, h, f, p, e1, hp, ?_⟩
  rintro (⟨l, hl, e⟩ | ⟨q1, q2, q3⟩ | q)
  · exact hw.love l hl (by linarith [show a.kl l + 1 = 0 from e])
  · exact e2 q1 q2 (by linarith [show f - k = 0 from q3])
  · have := q (coeffs (conf E a k h f p) (ocean (conf E a k h f p)))
      (by rw [transform_eq, if_pos ⟨hw.nphi, hw.nth⟩])
    apply hw.area
    have e := coeffs_zero E tol scalef a hw.legendre hw.shape k h f p hp (ocean (conf E a k h f p))
    rw [this] at e
    simp only [mul_zero] at e
    exact e.symm

/-- C41: for every well-posed problem and every positive number of iterations a field is returned,
converged or not; nothing tells the two apart.  For a number of iterations below one an exception is
raised. -/
theorem seaLevel_returns (E : Earth) (tol scalef : ℝ) (a : Args) (hw : WellPosed E scalef a) (load : CSlm) :
    (∃ sea, seaLevel E tol scalef a load = some sea) ↔ 1 ≤ a.ITERATIONS := by
  constructor
  · rintro ⟨sea, hs⟩
    obtain ⟨k, h, f, p, n, _, _, _, hn, _⟩ := seaLevel_state E tol scalef a load sea hs
    omega
  · intro hI
    obtain ⟨k, h, f, p, h1, h2, h3⟩ := wp_defined E tol scalef a hw
    set c := conf E a k h f p with hc
    have hd := dims_of_defined c h3
    -- the first pass count at which the loop stops
    have hex : ∃ r : ℕ, r = a.ITERATIONS.toNat ∨ ¬ (stSeq c (coeffs c (ocean c)) load (h0 c load) r).more := ⟨_, Or.inl rfl⟩
    classical
    set r := Nat.find hex with hr
    have hr1 := Nat.find_spec hex
    have hr2 : r ≤ a.ITERATIONS.toNat := Nat.find_min' hex (Or.inl rfl)
    have hr3 : ∀ i < r, (stSeq c (coeffs c (ocean c)) load (h0 c load) i).more := by
      intro i hi
      have := Nat.find_min hex hi
      rw [not_or, not_not] at this
      exact this.2
    have hsolve := (solve_spec c hd load a.ITERATIONS (stSeq c (coeffs c (ocean c)) load (h0 c load) r, r)).mpr
      ⟨rfl, hr2, hr3, hr1⟩
    have hr0 : r ≠ 0 := by
      intro e
      rw [← hr, e] at hr1
      rcases hr1 with g | g
      · omega
      · exact g trivial
    have hfin : ∃ s, finish c a.FILL (stSeq c (coeffs c (ocean c)) load (h0 c load) r, r) = some s := by
      unfold finish; rw [if_neg hr0]; exact ⟨_, rfl⟩
    obtain ⟨s, hfin⟩ := hfin
    exact ⟨s, (seaLevel_some E tol scalef a load _).mpr ⟨k, h, f, p, _, h1, h2, h3, hsolve, hfin⟩⟩

theorem scaleLoad_lin (s : ℝ) (load : CSlm) : scaleLoad s load = linY s load 0 load := by
  apply CSlm.ext' <;> intro l m <;> simp [scaleLoad, linY]

theorem addLoad_lin (x y : CSlm) : addLoad x y = linY 1 x 1 y := by
  apply CSlm.ext' <;> intro l m <;> simp [addLoad, linY]

/-- C41: the solver is homogeneous: for every factor but zero, a multiple of the load gives the same
multiple of the field (and an exception where the load itself gives one).  This includes the stopping
rule. -/
theorem seaLevel_scale (E : Earth) (tol scalef : ℝ) (a : Args) (hsc : a.SCALE ≠ 0) (hF : a.FILL = 0)
    (s : ℝ) (hs0 : s ≠ 0) (load : CSlm) :
    seaLevel E tol scalef a (scaleLoad s load) =
      (seaLevel E tol scalef a load).map fun sea i j => s * sea i j := by
  have key : ∀ (s : ℝ), s ≠ 0 → ∀ (load : CSlm) (sea : ℕ → ℕ → ℝ), seaLevel E tol scalef a load = some sea →
      seaLevel E tol scalef a (scaleLoad s load) = some fun i j => s * sea i j := by
    intro s hs0 load sea h
    obtain ⟨k, hh, f, p, r, h1, h2, h3, h4, h5⟩ := (seaLevel_some E tol scalef a load sea).mp h
    have hd := dims_of_defined _ h3
    obtain ⟨e1, e2, e3, e4⟩ := (solve_spec _ hd load a.ITERATIONS r).mp h4
    set c := conf E a k hh f p with hc
    have hsm := fun n => stSeq_smul c hsc (coeffs c (ocean c)) s hs0 load (h0 c load) n
    rw [← h0_lin, ← scaleLoad_lin] at hsm
    apply (seaLevel_some E tol scalef a _ _).mpr
    refine ⟨k, hh, f, p, (stSeq c (coeffs c (ocean c)) (scaleLoad s load) (h0 c (scaleLoad s load)) r.2, r.2), h1, h2, h3, ?_, ?_⟩
    · rw [solve_spec _ hd]
      refine ⟨rfl, e2, fun i hi => (hsm i).1.mpr (e3 i hi), ?_⟩
      rcases e4 with e4 | e4
      · exact Or.inl e4
      · exact Or.inr fun g => e4 ((hsm _).1.mp g)
    · unfold finish at h5 ⊢
      split_ifs at h5 ⊢ with h0'
      rw [Option.some.injEq] at h5 ⊢
      funext i j
      rw [← h5]
      dsimp only
      rw [if_neg (by rintro ⟨g, _⟩; exact g hF), if_neg (by rintro ⟨g, _⟩; exact g hF), (hsm r.2).2, e1]
  rcases h : seaLevel E tol scalef a load with _ | sea
  · rcases h' : seaLevel E tol scalef a (scaleLoad s load) with _ | sea'
    · rfl
    · exfalso
      have := key s⁻¹ (inv_ne_zero hs0) _ _ h'
      have e : scaleLoad s⁻¹ (scaleLoad s load) = load := by
        apply CSlm.ext' <;> intro l m <;> simp [scaleLoad, hs0]
      rw [e, h] at this
      simp at this
  · rw [key s hs0 load sea h]; rfl

/-- C41: no load, no sea level change -/
theorem seaLevel_no_load (E : Earth) (tol scalef : ℝ) (a : Args) (hsc : a.SCALE ≠ 0) (hF : a.FILL = 0)
    (sea : ℕ → ℕ → ℝ) (hs : seaLevel E tol scalef a ⟨fun _ _ => 0, fun _ _ => 0⟩ = some sea) (i j : ℕ) :
    sea i j = 0 := by
  have e : (⟨fun _ _ => 0, fun _ _ => 0⟩ : CSlm) = scaleLoad 2 ⟨fun _ _ => 0, fun _ _ => 0⟩ := by
    apply CSlm.ext' <;> intro l m <;> simp [scaleLoad]
  have h := seaLevel_scale E tol scalef a hsc hF 2 two_ne_zero ⟨fun _ _ => 0, fun _ _ => 0⟩
  rw [← e, hs] at h
  simp only [Option.map_some, Option.some.injEq] at h
  have := congrFun (congrFun h i) j
  linarith

/-- C41: with a single iteration the field is additive in the load -/
theorem seaLevel_add_one (E : Earth) (tol scalef : ℝ) (a : Args) (hsc : a.SCALE ≠ 0) (hF : a.FILL = 0)
    (hI : a.ITERATIONS = 1) (x y : CSlm) (sx sy : ℕ → ℕ → ℝ)
    (hx : seaLevel E tol scalef a x = some sx) (hy : seaLevel E tol scalef a y = some sy) :
    seaLevel E tol scalef a (addLoad x y) = some fun i j => sx i j + sy i j := by
  obtain ⟨k, h, f, p, n, h1, h2, h3, hn, hv⟩ := seaLevel_state E tol scalef a x sx hx
  obtain ⟨k', h', f', p', n', h1', h2', _, hn', hv'⟩ := seaLevel_state E tol scalef a y sy hy
  rw [h1, Option.some.injEq, Prod.mk.injEq, Prod.mk.injEq] at h1'
  obtain ⟨rfl, rfl, rfl⟩ := h1'
  rw [h2, Option.some.injEq] at h2'
  subst h2'
  rw [hI] at hn hn'
  have e0 : n = 0 := by simpa using hn
  have e0' : n' = 0 := by simpa using hn'
  subst e0; subst e0'
  set c := conf E a k h f p with hc
  have hd := dims_of_defined c h3
  apply (seaLevel_some E tol scalef a _ _).mpr
  refine ⟨k, h, f, p, (stSeq c (coeffs c (ocean c)) (addLoad x y) (h0 c (addLoad x y)) 1, 1), h1, h2, h3, ?_, ?_⟩
  · rw [solve_spec _ hd, hI]
    refine ⟨rfl, le_rfl, ?_, Or.inl rfl⟩
    intro i hi
    have : i = 0 := by simpa using hi
    subst this; trivial
  · unfold finish
    rw [if_neg one_ne_zero, Option.some.injEq]
    funext i j
    dsimp only
    rw [if_neg (by rintro ⟨g, _⟩; exact g hF), hv, hv', if_neg (by rintro ⟨g, _⟩; exact g hF),
      if_neg (by rintro ⟨g, _⟩; exact g hF)]
    change sSeq c _ _ _ 0 i j = _
    rw [addLoad_lin, h0_lin, sSeq_lin c hsc]
    ring

theorem modSum_eq (c : Conf) (y : CSlm) : modSum c y = modulus c.LMAX y := by
  unfold modSum modulus
  rw [sum_map_range]
  apply Finset.sum_congr rfl; intro l _
  rw [sum_map_range]

/-- the same arguments with another number of iterations -/
def Args.withIterations (a : Args) (N : ℤ) : Args := { a with ITERATIONS := N }

/-- C41: once two consecutive iteration counts `K`, `K+1` give fields whose harmonics have sums of
moduli within 1e-4 of each other (relative to the first), allowing more iterations changes nothing -/
theorem seaLevel_stable (E : Earth) (tol scalef : ℝ) (a : Args) (load : CSlm) (hF : a.FILL = 0)
    (K : ℕ) (hK : 1 ≤ K) (s1 s2 : ℕ → ℕ → ℝ) (y1 y2 : CSlm)
    (h1 : seaLevel E tol scalef (a.withIterations K) load = some s1)
    (h2 : seaLevel E tol scalef (a.withIterations (K + 1)) load = some s2)
    (hy1 : genHarmonics tol scalef ⟨a.nphi, a.nth, s1⟩ a.nphi a.nth a.glon a.glat a.LMAX none a.PLM = some y1)
    (hy2 : genHarmonics tol scalef ⟨a.nphi, a.nth, s2⟩ a.nphi a.nth a.glon a.glat a.LMAX none a.PLM = some y2)
    (hpos : modulus a.LMAX y1 ≠ 0)
    (hclose : |modulus a.LMAX y2 - modulus a.LMAX y1| ≤ 1e-4 * modulus a.LMAX y1) (N : ℤ) (hN : (K : ℤ) + 1 ≤ N) :
    seaLevel E tol scalef (a.withIterations N) load = some s2 := by
  obtain ⟨k, h, f, p, r1, e1, e2, e3, e4, e5⟩ := (seaLevel_some _ _ _ _ _ _).mp h1
  obtain ⟨k', h', f', p', r2, e1', e2', e3', e4', e5'⟩ := (seaLevel_some _ _ _ _ _ _).mp h2
  have ea : ∀ M, polarLove (a.withIterations M) = polarLove a := fun _ => rfl
  rw [ea] at e1 e1'
  rw [e1, Option.some.injEq, Prod.mk.injEq, Prod.mk.injEq] at e1'
  obtain ⟨rfl, rfl, rfl⟩ := e1'
  change plmAll tol scalef a.LMAX a.LMAX a.glat a.PLM = _ at e2 e2'
  rw [e2, Option.some.injEq] at e2'
  subst e2'
  change solve (conf E a k h f p) load (K : ℤ) = _ at e4
  change solve (conf E a k h f p) load ((K : ℤ) + 1) = _ at e4'
  set c := conf E a k h f p with hc
  have hd : 2 ≤ c.nphi ∧ 2 ≤ c.nth := dims_of_defined c e3
  rw [solve_spec c hd] at e4 e4'
  set st := stSeq c (coeffs c (ocean c)) load (h0 c load) with hst
  obtain ⟨a1, a2, a3, a4⟩ := e4
  obtain ⟨b1, b2, b3, b4⟩ := e4'
  rw [show ((K : ℤ)).toNat = K by omega] at a2 a4
  rw [show ((K : ℤ) + 1).toNat = K + 1 by omega] at b2 b4
  have fin : ∀ (r : Pass × ℕ) (s : ℕ → ℕ → ℝ), finish c a.FILL r = some s → r.2 ≠ 0 ∧ s = r.1.sea := by
    intro r s hr
    unfold finish at hr
    split_ifs at hr with h0'
    rw [Option.some.injEq] at hr
    refine ⟨h0', ?_⟩
    rw [← hr]; funext i j
    rw [if_neg (by rintro ⟨g, _⟩; exact g hF)]
  -- the second run has converged
  have hstop : ¬ (st r2.2).more := by
    rcases b4 with b4 | b4
    · -- all K+1 passes were made
      have hr1 : r1.2 = K := by
        rcases a4 with a4 | a4
        · exact a4
        · exfalso; exact a4 (b3 r1.2 (by omega))
      obtain ⟨K', rfl⟩ : ∃ K', K = K' + 1 := ⟨K - 1, by omega⟩
      have g1 : s1 = sSeq c (coeffs c (ocean c)) load (h0 c load) K' := by
        rw [(fin r1 s1 e5).2, a1, hr1]; rfl
      have g2 : s2 = sSeq c (coeffs c (ocean c)) load (h0 c load) (K' + 1) := by
        rw [(fin r2 s2 e5').2, b1, b4]; rfl
      rw [transform_api E tol scalef a k h f p e2, transform_eq, if_pos hd, Option.some.injEq] at hy1 hy2
      have q1 : hSeq c (coeffs c (ocean c)) load (h0 c load) (K' + 1) = y1 := by
        rw [← hy1, g1]; exact nextH_coeffs c load _
      have q2 : hSeq c (coeffs c (ocean c)) load (h0 c load) (K' + 1 + 1) = y2 := by
        rw [← hy2, g2]; exact nextH_coeffs c load _
      rw [b4]
      change ¬ notConverged c (hSeq c _ _ _ (K' + 1)) (hSeq c _ _ _ (K' + 1 + 1))
      rw [q1, q2]
      unfold notConverged
      rw [modSum_eq, modSum_eq]
      change ¬ (if modulus a.LMAX y1 = 0 then _ else 1e-4 < |(modulus a.LMAX y2 - modulus a.LMAX y1) / modulus a.LMAX y1|)
      rw [if_neg hpos, not_lt, abs_div]
      have hnn : 0 ≤ modulus a.LMAX y1 := by
        unfold modulus; exact Finset.sum_nonneg fun l _ => Finset.sum_nonneg fun m _ => Real.sqrt_nonneg _
      have hlt : 0 < modulus a.LMAX y1 := lt_of_le_of_ne hnn (Ne.symm hpos)
      rw [abs_of_pos hlt, div_le_iff₀ hlt]
      exact hclose
    · exact b4
  apply (seaLevel_some _ _ _ _ _ _).mpr
  refine ⟨k, h, f, p, r2, e1, e2, e3, ?_, e5'⟩
  change solve c load N = some r2
  rw [solve_spec c hd]
  exact ⟨b1, by omega, b3, Or.inr hstop⟩

/-- C41: Love numbers in the frame of the centre of mass of the Earth system (`k_1 = -1`) give no finite
field for any truncation of degree one or more -/
theorem seaLevel_cm_frame (E : Earth) (tol scalef : ℝ) (a : Args) (load : CSlm) (hL : 1 ≤ a.LMAX)
    (hk : a.kl 1 = -1) : seaLevel E tol scalef a load = none := by
  rcases h : seaLevel E tol scalef a load with _ | sea
  · rfl
  · obtain ⟨k, hh, f, p, r, _, _, h3, _⟩ := (seaLevel_some _ _ _ _ _ _).mp h
    exact absurd (Or.inl ⟨1, hL, by change a.kl 1 + 1 = 0; rw [hk]; ring⟩) h3

/-- C41: without polar motion feedback the choice of body tide and fluid Love numbers has no effect; with
it an unknown code raises -/
theorem seaLevel_polar (E : Earth) (tol scalef : ℝ) (a : Args) (load : CSlm) :
    (a.POLAR = false ∨ a.LMAX < 2 → ∀ B F, seaLevel E tol scalef { a with BODY := B, FLUID := F } load =
      seaLevel E tol scalef a load) ∧
    (a.POLAR = true → 2 ≤ a.LMAX → ∀ n : ℤ, (n < 0 ∨ 1 < n) → seaLevel E tol scalef { a with BODY := .code n } load = none) ∧
    (a.POLAR = true → 2 ≤ a.LMAX → ∀ n : ℤ, (n < 0 ∨ 3 < n) → seaLevel E tol scalef { a with FLUID := .code n } load = none) := by
  refine ⟨?_, ?_, ?_⟩
  · intro h B F
    have hn : ¬ (a.POLAR = true ∧ 2 ≤ a.LMAX) := by
      rintro ⟨g1, g2⟩
      rcases h with h | h
      · rw [h] at g1; exact absurd g1 (by decide)
      · omega
    have : polarLove { a with BODY := B, FLUID := F } = polarLove a := by
      unfold polarLove
      rw [if_neg (by exact hn), if_neg hn]
    unfold seaLevel
    rw [this]
  · intro h1 h2 n hn
    have : polarLove { a with BODY := .code n } = none := by
      unfold polarLove
      rw [if_pos (by exact ⟨h1, h2⟩)]
      have : bodyTide (.code n) = none := by
        unfold bodyTide; dsimp only; rw [if_neg (by omega), if_neg (by omega)]
      dsimp only; rw [this]
    unfold seaLevel; rw [this]
  · intro h1 h2 n hn
    have : polarLove { a with FLUID := .code n } = none := by
      unfold polarLove
      rw [if_pos (by exact ⟨h1, h2⟩)]
      have : fluid (.code n) = none := by
        unfold fluid; dsimp only; rw [if_neg (by omega), if_neg (by omega), if_neg (by omega), if_neg (by omega)]
      dsimp only; rw [this]; cases bodyTide a.BODY <;> rfl
    unfold seaLevel; rw [this]

/-! ## A case that meets the hypotheses -/

/-- three longitudes, two latitudes, one land cell, default Love numbers of the rotation -/
noncomputable def demo : Args where
  nphi := 3
  nth := 2
  glon := fun i => 120 * i
  glat := fun j => 45 - 90 * j
  land := fun i j => if i = 0 ∧ j = 0 then 1 else 0
  LMAX := 4
  hl := fun l => if l = 0 then 0 else -1
  kl := fun l => if l = 0 then 0 else -0.3
  POLAR := true
  BODY := .code 0
  FLUID := .code 0
  ITERATIONS := 6
  PLM := none
  FILL := 0
  SCALE := (1 / 10 ^ 280)

theorem demo_wellPosed : WellPosed Earth.default (1 / 10 ^ 280) demo where
  radius := (rad_pos default_ok).ne'
  nphi := by decide
  nth := by decide
  shape := by decide
  legendre := Or.inr ⟨rfl, by positivity, by decide, by
    intro j hj
    have : j = 0 ∨ j = 1 := by change j < 2 at hj; omega
    rcases this with rfl | rfl <;> norm_num [demo]⟩
  scale := by change (1 / 10 ^ 280 : ℝ) ≠ 0; positivity
  area := by
    have h1 := rad_pos default_ok
    have hpi := Real.pi_pos
    have s1 : Real.sin (colat 45) = Real.sqrt 2 / 2 := by
      unfold colat; rw [show ((90 : ℝ) - 45) * Real.pi / 180 = Real.pi / 4 by ring, Real.sin_pi_div_four]
    have s2 : Real.sin (colat (-45)) = Real.sqrt 2 / 2 := by
      unfold colat
      rw [show ((90 : ℝ) - -45) * Real.pi / 180 = Real.pi - Real.pi / 4 by ring, Real.sin_pi_sub, Real.sin_pi_div_four]
    have e : layerMass Earth.default demo (fun _ _ => True) (fun i j => 1 - demo.land i j) =
        rad_e Earth.default ^ 2 * (5 * (Real.sqrt 2 / 2 * (120 * Real.pi / 180) * (90 * Real.pi / 180))) := by
      unfold layerMass
      congr 1
      simp only [demo, if_true, Finset.sum_range_succ, Finset.sum_range_zero, stepRad]
      norm_num [s1, s2]
      ring
    rw [e]; positivity
  love := by
    intro l _
    by_cases h : l = 0 <;> simp [demo, h] <;> norm_num
  polar := by
    intro _ _
    exact ⟨0.298, 0.604, 0.00328475 / 0.00348118, by simp [bodyTide, demo], by simp [fluid, demo], by norm_num⟩

example (load : CSlm) : ∃ sea, seaLevel Earth.default 1e-15 (1 / 10 ^ 280) demo load = some sea ∧
    layerMass Earth.default demo (fun _ _ => True) sea = -(mass Earth.default * load.clm 0 0) ∧ sea 0 0 = 0 := by
  obtain ⟨sea, hs⟩ := (seaLevel_returns Earth.default 1e-15 (1 / 10 ^ 280) demo demo_wellPosed load).mpr (by decide)
  exact ⟨sea, hs, seaLevel_mass _ _ _ _ _ _ demo_wellPosed.radius demo_wellPosed.legendre demo_wellPosed.shape rfl hs,
    seaLevel_land _ _ _ _ _ _ hs 0 0 (by simp [demo])⟩

/-- **C41** the published body tide Love numbers: Wahr (1981) for code 0, Farrell (1972) for code 1; any other
code is refused -/
theorem bodyTide_table (n : ℤ) (k h : ℝ) :
    bodyTide (.code n) = some (k, h) ↔
      (n = 0 ∧ k = 298 / 1000 ∧ h = 604 / 1000) ∨ (n = 1 ∧ k = 3055 / 10000 ∧ h = 6149 / 10000) := by
  unfold bodyTide
  by_cases h0 : n = 0
  · subst h0
    norm_num [Prod.ext_iff, eq_comm]
  · by_cases h1 : n = 1
    · subst h1
      norm_num [Prod.ext_iff, eq_comm]
    · simp [h0, h1]

/-- **C41** the fluid Love number by code: Han and Wahr (1989), Munk and MacDonald (1960, two formulas) and
Lambeck (1980); any other code is refused -/
theorem fluid_table (n : ℤ) (f : ℝ) :
    fluid (.code n) = some f ↔
      (n = 0 ∧ f = 328475 / 348118) ∨
      (n = 1 ∧ f = 3 * (398004418 * 10 ^ 6) * (100 / 30551) * (33068 / 100000) /
        ((6371000 : ℝ) ^ 3 * (7292115 / 10 ^ 11) ^ 2)) ∨
      (n = 2 ∧ f = 2 * (10 ^ 9 / 298257223563) * (980665 / 100000) /
        ((7292115 / 10 ^ 11 : ℝ) ^ 2 * 6371000) - 1) ∨
      (n = 3 ∧ f = 942 / 1000) := by
  unfold fluid
  by_cases h0 : n = 0
  · subst h0; norm_num [eq_comm]
  · by_cases h1 : n = 1
    · subst h1; norm_num [eq_comm]
    · by_cases h2 : n = 2
      · subst h2; norm_num [eq_comm]
      · by_cases h3 : n = 3
        · subst h3; norm_num [eq_comm]
        · simp [h0, h1, h2, h3]

/-- **C41** custom Love numbers are used as given -/
theorem custom_love (k h f : ℝ) : bodyTide (.custom k h) = some (k, h) ∧ fluid (.custom f) = some f := ⟨rfl, rfl⟩

end Verif.SeaLevel
