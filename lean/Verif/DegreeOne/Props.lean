import Verif.DegreeOne.Pass
import Verif.Analysis.Trig
import Mathlib.Analysis.Real.Pi.Bounds

/-!
# Property C74: the geocenter estimate

Uniform layer (`FINGERPRINT=False`); statements in terms of `Verif.DegreeOne.Spec`.
-/
namespace Verif.DegreeOne
open Verif.Legendre Verif.Synthesis Verif.Units Verif.Analysis Finset

/-- the script has prepared `s` from a usable grid, `LMAX >= 2` and a smoothing radius of at most
20000 km -/
def Prepared (s : Setup) : Prop :=
  Usable s.g s.E s.kl ∧ 2 ≤ s.LMAX ∧ ∃ eps scalef EXPANSION MMAX RAD, scalef ≠ 0 ∧ 0 ≤ RAD ∧ RAD ≤ 20000 ∧
    setup s.g s.E eps scalef s.hl s.kl s.ll s.LMAX MMAX EXPANSION RAD = some s

/-- the preparation succeeds on usable input -/
theorem setup_succeeds (g : Grid) (E : Earth) (eps scalef : ℝ) (hs : scalef ≠ 0) (hl kl ll : ℕ → ℝ) (LMAX : ℕ)
    (hL : 2 ≤ LMAX) (MMAX : Option ℕ) (EXPANSION : ℕ) (hE : LMAX ≤ EXPANSION) (RAD : ℝ) (hR : 0 ≤ RAD)
    (hR' : RAD ≤ 20000) (u : Usable g E kl) :
    ∃ s, setup g E eps scalef hl kl ll LMAX MMAX EXPANSION RAD = some s ∧ Prepared s ∧ s.g = g ∧ s.E = E ∧
      s.kl = kl ∧ s.LMAX = LMAX := by
  have hw : ∃ w, smoothing RAD LMAX = some w := by
    unfold smoothing
    by_cases h0 : RAD = 0
    · rw [if_neg (by simpa using h0)]; exact ⟨_, rfl⟩
    · rw [if_pos h0]
      by_cases hc : RAD < 1e-10
      · obtain ⟨w, hw, -⟩ := gaussWeights_small RAD 1e-10 LMAX hc
        rw [hw]; exact ⟨_, rfl⟩
      · obtain ⟨w, hw, -⟩ := gaussWeights_spec RAD 1e-10 LMAX (by omega) (not_lt.1 hc)
        rw [hw]; exact ⟨_, rfl⟩
  obtain ⟨w, hw⟩ := hw
  obtain ⟨p, hp, -⟩ := plmAll_interior eps scalef hs EXPANSION EXPANSION (by omega) le_rfl g.lat
  have e : ∃ s, setup g E eps scalef hl kl ll LMAX MMAX EXPANSION RAD = some s ∧ s.hl = hl ∧ s.ll = ll := by
    unfold setup
    rw [if_neg (by omega), hp, hw]
    exact ⟨_, rfl, rfl, rfl⟩
  obtain ⟨s, hs', h5, h6⟩ := e
  obtain ⟨f, h1, h2, h3, h4⟩ := setup_facts g E eps scalef hs hl kl ll LMAX hL MMAX EXPANSION RAD u s hs'
  refine ⟨s, hs', ⟨f.u, f.L, eps, scalef, EXPANSION, MMAX, RAD, hs, hR, hR', ?_⟩, h1, h2, h3, h4⟩
  rw [h1, h2, h3, h4, h5, h6]; exact hs'

theorem Prepared.facts {s : Setup} (h : Prepared s) : Facts s := by
  obtain ⟨u, hL, eps, scalef, EXP, MM, RAD, hs, -, -, e⟩ := h
  exact (setup_facts s.g s.E eps scalef hs s.hl s.kl s.ll s.LMAX hL MM EXP RAD u s e).1

/-- the smoothing weight of degree one lies between 0 and 1 -/
theorem Prepared.weight {s : Setup} (h : Prepared s) : 0 ≤ s.wt 1 ∧ s.wt 1 ≤ 1 := by
  obtain ⟨u, hL, eps, scalef, EXP, MM, RAD, hs, hR, hR', e⟩ := h
  unfold setup at e
  by_cases hE : EXP < s.LMAX
  · rw [if_pos hE] at e; exact absurd e (by simp)
  rw [if_neg hE] at e
  simp only [Option.bind_eq_bind, Option.bind_eq_some_iff, Option.some.injEq] at e
  obtain ⟨P, -, wt, hw, e⟩ := e
  have hwt : s.wt = wt := by rw [← e]
  rw [hwt]
  have hpi := Real.pi_pos
  unfold smoothing at hw
  by_cases h0 : RAD = 0
  · rw [if_neg (by simpa using h0), Option.some.injEq] at hw
    rw [← hw]; norm_num
  · rw [if_pos h0] at hw
    have hpos : 0 < RAD := lt_of_le_of_ne hR (Ne.symm h0)
    have key : ∀ w : ℕ → ℝ, gaussWeights RAD s.LMAX 1e-10 = some w → 0 ≤ w 1 → w 1 ≤ 1 / (2 * Real.pi) →
        0 ≤ wt 1 ∧ wt 1 ≤ 1 := by
      intro w hw' a b
      rw [hw'] at hw
      simp only [Option.map_some, Option.some.injEq] at hw
      rw [← hw]
      refine ⟨by positivity, ?_⟩
      rw [le_div_iff₀ (by positivity)] at b
      linarith
    by_cases hc : RAD < 1e-10
    · obtain ⟨w, hw', hv⟩ := gaussWeights_small RAD 1e-10 s.LMAX hc
      exact key w hw' (by rw [hv 1 (by omega)]; positivity) (le_of_eq (hv 1 (by omega)))
    · have hcos : Real.cos (RAD / 6371) < 1 := by
        have h1 : 0 < RAD / 6371 := by positivity
        have h2 : RAD / 6371 ≤ Real.pi := by
          have := Real.pi_gt_d6
          rw [div_le_iff₀ (by norm_num)]
          nlinarith
        have := Real.cos_lt_cos_of_nonneg_of_le_pi le_rfl h2 h1
        rwa [Real.cos_zero] at this
      obtain ⟨w, hw', hv⟩ := gaussWeights_bounds RAD 1e-10 s.LMAX (by omega) (not_lt.1 hc) hcos (by norm_num) (by
        have := Real.pi_lt_d2
        rw [le_div_iff₀ (by positivity)]
        nlinarith)
      exact key w hw' (hv 1 (by omega)).1.le (hv 1 (by omega)).2

/-- Specification: degree one coefficient of the part of a field over the ocean -/
noncomputable def oceanCoef (g : Grid) (r : Fin 3) (F : ℕ → ℕ → ℝ) : ℝ :=
  oceanInt g fun k i => Real.sqrt 3 * unitVec g r k i * F k i

/-- Specification: the field of a month: observed coefficients with degree one set to `x`, less GIA and
atmospheric corrections -/
def monthField (d : Month) (x : V3) : CSlm where
  clm l m := (if l = 1 ∧ m = 0 then x 0 else if l = 1 ∧ m = 1 then x 1 else d.gsm.clm l m) - d.gia.clm l m - d.atm.clm l m
  slm l m := (if l = 1 ∧ m = 1 then x 2 else d.gsm.slm l m) - d.gia.slm l m - d.atm.slm l m

theorem monthField_eq (d : Month) (x : V3) : monthField d x = total d x := rfl

/-- Specification: `D` are the degree one coefficients of mass for which the mass over the ocean has the
degree one coefficients of a uniform layer `w` that compensates the mass on land, when the latter is
computed with the degree one coefficients `x`; `obp` is what an ocean model adds -/
def OceanBalance (s : Setup) (d : Month) (obp x D : V3) : Prop :=
  ∃ w : ℝ, w * oceanInt s.g (fun _ _ => 1) +
      landInt s.g (massField s.g s.E s.kl s.wt 1 s.LMAX s.MMAX (monthField d x)) = 0 ∧
    ∀ r, oceanCoef s.g r (fun k i => degOneField s.g D k i +
        massField s.g s.E s.kl s.wt 2 s.LMAX s.MMAX (monthField d x) k i) =
      oceanCoef s.g r (fun _ _ => w) + obp r

/-- the ocean model term that is used -/
def obpTerm (useObp : Bool) (d : Month) : V3 := fun j => if useObp then d.obp j else 0

theorem oceanCoef_eq {s : Setup} (h : Facts s) (r : Fin 3) (F H : ℕ → ℕ → ℝ)
    (e : ∀ k i, -90 < s.g.lat i → s.g.lat i < 90 → F k i = H k i) :
    oceanCoef s.g r F = Alg.Q (cells s.g) (wgt s.g) (Yc s r) (fun p => H p.1 p.2) := by
  unfold oceanCoef
  rw [← Q_eq s.g (fun k i => Real.sqrt 3 * unitVec s.g r k i) F]
  apply Q_interior h
  intro k i h1 h2
  refine ⟨?_, e k i h1 h2⟩
  unfold Yc
  rw [Y_eq h r k i h1 h2]

theorem landInt_interior {s : Setup} (h : Facts s) (F H : ℕ → ℕ → ℝ)
    (e : ∀ k i, -90 < s.g.lat i → s.g.lat i < 90 → F k i = H k i) : landInt s.g F = landInt s.g H := by
  rw [landInt_eq, landInt_eq]
  exact gridInt_interior h _ _ (fun k i h1 h2 => by rw [e k i h1 h2])

theorem oarea_ne {s : Setup} (h : Facts s) (ho : OceanSpans s.g) : 0 < oarea s := by
  unfold oarea
  rw [oceanInt_cells]
  simp only [mul_one]
  have hn := wgt_nonneg (g := s.g) h.u.lats
  by_contra hc
  have h0 : ∑ p ∈ cells s.g, wgt s.g p = 0 := le_antisymm (not_lt.1 hc) (sum_nonneg hn)
  have hz := (sum_eq_zero_iff_of_nonneg hn).1 h0
  have := spans_of h ho (fun _ => 1) (fun p hp hw => absurd (hz p hp) hw)
  exact one_ne_zero (congrFun this 0)

theorem layer_iff {s : Setup} (h : Facts s) (ho : OceanSpans s.g) (d : Month) (x : V3) (w : ℝ) :
    w * oceanInt s.g (fun _ _ => 1) +
      landInt s.g (massField s.g s.E s.kl s.wt 1 s.LMAX s.MMAX (monthField d x)) = 0 ↔ w = layer s d x := by
  rw [monthField_eq, ← landInt_interior h (gridMass s 1 (total d x)) _ (fun k i h1 h2 => gridMass_eq h 1 le_rfl _ k i h1 h2)]
  have := (oarea_ne h ho).ne'
  unfold layer
  rw [eq_div_iff this]
  constructor <;> intro e <;> linarith

theorem balance_iff {s : Setup} (h : Facts s) (ho : OceanSpans s.g) (useObp : Bool) (d : Month) (x D : V3) :
    OceanBalance s d (obpTerm useObp d) x D ↔ D = (imat s)⁻¹.mulVec (rhs s useObp d x) := by
  have hd := det_ne h ho
  have hu : IsUnit (imat s).det := isUnit_iff_ne_zero.2 hd
  have key : (∀ r, oceanCoef s.g r (fun k i => degOneField s.g D k i +
        massField s.g s.E s.kl s.wt 2 s.LMAX s.MMAX (monthField d x) k i) =
      oceanCoef s.g r (fun _ _ => layer s d x) + obpTerm useObp d r) ↔
      (imat s).mulVec D = rhs s useObp d x := by
    rw [funext_iff]
    apply forall_congr'; intro r
    rw [oceanCoef_eq h r _ (fun k i => Alg.comb (Yc s) D (k, i) + gridMass s 2 (total d x) k i)
      (fun k i h1 h2 => by rw [comb_Y h D k i h1 h2, gridMass_eq h 2 (by omega) _ k i h1 h2]; rfl),
      oceanCoef_eq h r (fun _ _ => layer s d x) (fun _ _ => layer s d x) (fun _ _ _ _ => rfl)]
    have e1 : Alg.Q (cells s.g) (wgt s.g) (Yc s r) (fun p => Alg.comb (Yc s) D (p.1, p.2) + gridMass s 2 (total d x) p.1 p.2) =
        (imat s).mulVec D r + gmat s d r := by
      rw [imat_eq, Alg.gram_mulVec]
      unfold gmat
      rw [project_eq, gridMass_two d x]
      unfold Alg.Q
      rw [← sum_add_distrib]
      apply sum_congr rfl; intro p _
      ring
    have e2 : Alg.Q (cells s.g) (wgt s.g) (Yc s r) (fun _ => layer s d x) = mo s r * layer s d x := by
      unfold mo Alg.mom Alg.Q
      rw [sum_mul]
      apply sum_congr rfl; intros; ring
    rw [e1, e2]
    unfold rhs obpTerm
    constructor <;> intro e <;> linarith
  unfold OceanBalance
  constructor
  · rintro ⟨w, hw, hr⟩
    rw [layer_iff h ho] at hw
    subst hw
    rw [← key.1 hr, Matrix.mulVec_mulVec, Matrix.nonsing_inv_mul _ hu, Matrix.one_mulVec]
  · intro e
    refine ⟨layer s d x, (layer_iff h ho d x _).2 rfl, key.2 ?_⟩
    rw [e, Matrix.mulVec_mulVec, Matrix.mul_nonsing_inv _ hu, Matrix.one_mulVec]

/-- C74: one pass solves the ocean balance of every month, uniquely, and returns the solution in terms
of gravity with GIA and atmosphere restored and the mean over the months removed -/
theorem pass_balance (s : Setup) (h : Prepared s) (ho : OceanSpans s.g) (useObp : Bool) (n : ℕ) (d : ℕ → Month)
    (x : ℕ → V3) :
    ∃ D y, onePass s .uniform .inv useObp n d x = some (D, y) ∧
      (∀ t < n, ∀ v, OceanBalance s (d t) (obpTerm useObp (d t)) (x t) v ↔ v = D t) ∧
      (∀ t j, y t j = D t j / massFactor s.E s.kl 1 + deg1 (d t).gia j + deg1 (d t).atm j -
        (∑ u ∈ range n, (D u j / massFactor s.E s.kl 1 + deg1 (d u).gia j + deg1 (d u).atm j)) / n) := by
  have f := h.facts
  refine ⟨_, _, onePass_eq f (det_ne f ho) useObp n d x, fun t _ v => balance_iff f ho useObp (d t) (x t) v, ?_⟩
  intro t j
  unfold centre restore
  rw [dfac_eq]

/-- C74: the estimate exists for every input when the ocean does not lie in a plane through the centre
of the Earth, and the inverse fails for every input (of at least one month) when it does -/
theorem calcDegreeOne_isSome (s : Setup) (h : Prepared s) (useObp it : Bool) (n : ℕ) (hn : 1 ≤ n) (d : ℕ → Month)
    (x : ℕ → V3) : (calcDegreeOne s .uniform .inv useObp it n d x).isSome ↔ OceanSpans s.g := by
  have f := h.facts
  constructor
  · intro hs
    by_contra ho
    have hz : ∀ fuel x, passes s .uniform .inv useObp n d fuel x = none := by
      intro fuel x
      cases fuel with
      | zero => rfl
      | succ fuel =>
        unfold passes
        have : onePass s .uniform .inv useObp n d x = none := by
          unfold onePass allMonths
          rw [if_neg]
          · rfl
          · intro hc
            have := hc 0 (by omega)
            dsimp only at this
            rw [dmat_singular f (det_zero f ho)] at this
            exact absurd this (by simp)
        rw [this]; rfl
    unfold calcDegreeOne at hs
    rw [hz] at hs
    exact absurd hs (by simp)
  · intro ho
    have hz : ∀ fuel x, (passes s .uniform .inv useObp n d (fuel + 1) x).isSome := by
      intro fuel
      induction fuel with
      | zero =>
        intro x
        unfold passes
        rw [onePass_eq f (det_ne f ho)]
        simp
      | succ fuel ih =>
        intro x
        unfold passes
        rw [onePass_eq f (det_ne f ho)]
        simp only [Option.bind_eq_bind, Option.bind_some]
        split_ifs with hc
        · obtain ⟨r, hr⟩ := Option.isSome_iff_exists.1 (ih (centre n fun t => restore s (d t) ((imat s)⁻¹.mulVec (rhs s useObp (d t) (x t)))))
          rw [hr]; simp
        · simp
    unfold calcDegreeOne
    rw [Option.isSome_map]
    unfold maxIter
    cases it
    · exact hz 0 x
    · exact hz 14 x

/-- Specification: a pass still moves the series if the root of the summed squared changes exceeds `1e-6`
times the root of the summed squares of the series before the pass -/
def StillMoving (n : ℕ) (before after : ℕ → V3) : Prop :=
  1e-6 * Real.sqrt (∑ t ∈ range n, (before t 0 ^ 2 + before t 1 ^ 2 + before t 2 ^ 2)) <
    Real.sqrt (∑ t ∈ range n,
      ((before t 0 - after t 0) ^ 2 + (before t 1 - after t 1) ^ 2 + (before t 2 - after t 2) ^ 2))

theorem goOn_iff (n : ℕ) (x y : ℕ → V3) : goOn n x y = true ↔ StillMoving n x y := by
  have hs : ∑ j : Fin 3, ∑ t ∈ range n, (x t j - y t j) ^ 2 =
      ∑ t ∈ range n, ((x t 0 - y t 0) ^ 2 + (x t 1 - y t 1) ^ 2 + (x t 2 - y t 2) ^ 2) := by
    rw [Fin.sum_univ_three, ← sum_add_distrib, ← sum_add_distrib]
  have hp : ∑ t ∈ range n, ∑ j : Fin 3, x t j ^ 2 =
      ∑ t ∈ range n, (x t 0 ^ 2 + x t 1 ^ 2 + x t 2 ^ 2) := by
    refine sum_congr rfl fun t _ => ?_
    rw [Fin.sum_univ_three]
  unfold goOn StillMoving
  simp only [hs, hp]
  have hs0 : 0 ≤ ∑ t ∈ range n, ((x t 0 - y t 0) ^ 2 + (x t 1 - y t 1) ^ 2 + (x t 2 - y t 2) ^ 2) :=
    sum_nonneg fun t _ => by positivity
  have hp0 : 0 ≤ ∑ t ∈ range n, (x t 0 ^ 2 + x t 1 ^ 2 + x t 2 ^ 2) :=
    sum_nonneg fun t _ => by positivity
  split_ifs with h0
  · rw [h0, Real.sqrt_zero, mul_zero, decide_eq_true_eq, Real.sqrt_pos]
    exact ⟨fun h => lt_of_le_of_ne hs0 (Ne.symm h), fun h => h.ne'⟩
  · rw [decide_eq_true_eq, lt_div_iff₀ (Real.sqrt_pos.2 (lt_of_le_of_ne hp0 (Ne.symm h0)))]

/-- C74: the result is the series of the last pass, there are between one and 15 passes (one without
`ITERATIVE`), every pass starts from the series of the pass before, every pass that is followed by another
still moved the series, and a run that stops before the limit stops because the last pass no longer did -/
theorem calcDegreeOne_passes (s : Setup) (e : Eustatic) (v : Solver) (useObp it : Bool) (n : ℕ) (d : ℕ → Month)
    (x y : ℕ → V3) (h : calcDegreeOne s e v useObp it n d x = some y) :
    ∃ ys : List (ℕ → V3), 1 ≤ ys.length ∧ ys.length ≤ (if it then 15 else 1) ∧ ys.getLast? = some y ∧
      (∀ j < ys.length, ∃ D, onePass s e v useObp n d ((x :: ys)[j]!) = some (D, ys[j]!)) ∧
      (∀ j, j + 1 < ys.length → StillMoving n ((x :: ys)[j]!) (ys[j]!)) ∧
      (ys.length < (if it then 15 else 1) → ∀ j, j + 1 = ys.length → ¬ StillMoving n ((x :: ys)[j]!) (ys[j]!)) := by
  unfold calcDegreeOne at h
  rw [Option.map_eq_some_iff] at h
  obtain ⟨⟨ys, D⟩, hp, hy⟩ := h
  dsimp only at hy
  have gen : ∀ fuel x ys D, passes s e v useObp n d fuel x = some (ys, D) →
      1 ≤ ys.length ∧ ys.length ≤ fuel ∧ ys.getLast? = some (centre n fun t => restore s (d t) (D t)) ∧
      (∀ j < ys.length, ∃ D, onePass s e v useObp n d ((x :: ys)[j]!) = some (D, ys[j]!)) ∧
      (∀ j, j + 1 < ys.length → StillMoving n ((x :: ys)[j]!) (ys[j]!)) ∧
      (ys.length < fuel → ∀ j, j + 1 = ys.length → ¬ StillMoving n ((x :: ys)[j]!) (ys[j]!)) := by
    intro fuel
    induction fuel with
    | zero => intro x ys D hp; exact absurd hp (by simp [passes])
    | succ fuel ih =>
      intro x ys D hp
      unfold passes at hp
      simp only [Option.bind_eq_bind, Option.bind_eq_some_iff] at hp
      obtain ⟨⟨D1, y1⟩, h1, hp⟩ := hp
      have hy1 : y1 = centre n fun t => restore s (d t) (D1 t) := by
        unfold onePass at h1
        rw [Option.map_eq_some_iff] at h1
        obtain ⟨D', -, e'⟩ := h1
        rw [Prod.mk.injEq] at e'
        rw [← e'.2, e'.1]
      split_ifs at hp with hc
      · rw [Option.bind_eq_some_iff] at hp
        obtain ⟨⟨ys', D'⟩, h2, hp⟩ := hp
        simp only [Option.some.injEq, Prod.mk.injEq] at hp
        obtain ⟨rfl, rfl⟩ := hp
        obtain ⟨a, b, c, dd, mv, st⟩ := ih y1 ys' D' h2
        refine ⟨by simp, by simp; omega, ?_, ?_, ?_, ?_⟩
        · rw [List.getLast?_cons]
          rw [c]; rfl
        · intro j hj
          cases j with
          | zero => exact ⟨D1, by simpa using h1⟩
          | succ j =>
            obtain ⟨D2, hD2⟩ := dd j (by simpa using hj)
            exact ⟨D2, by simpa using hD2⟩
        · intro j hj
          cases j with
          | zero => simpa using (goOn_iff n x y1).1 hc.1
          | succ j => simpa using mv j (by simpa using hj)
        · intro hl j hj
          simp only [List.length_cons] at hl hj
          cases j with
          | zero => omega
          | succ j => simpa using st (by omega) j (by omega)
      · simp only [Option.some.injEq, Prod.mk.injEq] at hp
        obtain ⟨rfl, rfl⟩ := hp
        refine ⟨by simp, by simp, by simp [hy1], ?_, ?_, ?_⟩
        · intro j hj
          simp only [List.length_cons, List.length_nil] at hj
          obtain rfl : j = 0 := by omega
          exact ⟨D1, by simpa using h1⟩
        · intro j hj
          simp only [List.length_cons, List.length_nil] at hj
          omega
        · intro hl j hj
          simp only [List.length_cons, List.length_nil] at hl hj
          obtain rfl : j = 0 := by omega
          have : goOn n x y1 ≠ true := fun hg => hc ⟨hg, by omega⟩
          rw [Ne, goOn_iff] at this
          simpa using this
  obtain ⟨a, b, c, dd, mv, st⟩ := gen _ _ _ _ hp
  unfold maxIter at b st
  exact ⟨ys, a, b, by rw [c, hy], dd, mv, st⟩

/-- C74: the result has zero mean over the months, whatever the solver and the sea level -/
theorem calcDegreeOne_mean (s : Setup) (e : Eustatic) (v : Solver) (useObp it : Bool) (n : ℕ) (d : ℕ → Month)
    (x y : ℕ → V3) (h : calcDegreeOne s e v useObp it n d x = some y) (j : Fin 3) :
    ∑ t ∈ range n, y t j = 0 := by
  unfold calcDegreeOne at h
  rw [Option.map_eq_some_iff] at h
  obtain ⟨r, -, rfl⟩ := h
  unfold centre
  rw [sum_sub_distrib, sum_const, card_range, nsmul_eq_mul]
  rcases Nat.eq_zero_or_pos n with hn | hn
  · subst hn; simp
  · have : (n : ℝ) ≠ 0 := by exact_mod_cast hn.ne'
    field_simp
    ring

/-- Specification: mean square difference over the ocean of two series of degree one fields, summed over
the months -/
noncomputable def misfit (g : Grid) (n : ℕ) (x y : ℕ → V3) : ℝ :=
  ∑ t ∈ range n, oceanInt g fun k i => degOneField g (fun j => x t j - y t j) k i ^ 2

theorem misfit_eq {s : Setup} (h : Facts s) (n : ℕ) (x y : ℕ → V3) :
    misfit s.g n x y = ∑ t ∈ range n, Alg.Q (cells s.g) (wgt s.g) (Alg.comb (Yc s) fun j => x t j - y t j)
      (Alg.comb (Yc s) fun j => x t j - y t j) := by
  unfold misfit
  apply sum_congr rfl; intro t _
  rw [Q_interior h _ _ (fun p => degOneField s.g (fun j => x t j - y t j) p.1 p.2)
    (fun p => degOneField s.g (fun j => x t j - y t j) p.1 p.2)
    (fun k i h1 h2 => ⟨comb_Y h _ k i h1 h2, comb_Y h _ k i h1 h2⟩), Q_eq]
  congr 1
  funext k i
  ring

/-- the rate of convergence: share of the ocean's constant that degree one fields can explain, times the
smoothing weight -/
noncomputable def rate (s : Setup) : ℝ := s.wt 1 / oarea s * Alg.q (cells s.g) (wgt s.g) (Yc s)

theorem rate_bounds {s : Setup} (h : Prepared s) (ho : OceanFull s.g) : 0 ≤ rate s ∧ rate s < 1 := by
  have f := h.facts
  have hsp : OceanSpans s.g := fun x hx => (ho x 0 hx).1
  obtain ⟨h1, h2⟩ := Alg.q_lt _ _ _ (wgt_nonneg f.u.lats) (full_of f ho)
  have hA := oarea_ne f hsp
  have e : Alg.Q (cells s.g) (wgt s.g) (fun _ => 1) (fun _ => 1) = oarea s := by
    rw [Q_eq s.g (fun _ _ => 1) (fun _ _ => 1)]; simp [oarea]
  rw [e] at h2
  obtain ⟨w0, w1⟩ := h.weight
  unfold rate
  refine ⟨by positivity, ?_⟩
  rw [div_mul_eq_mul_div, div_lt_one hA]
  nlinarith

theorem pass_shrinks {s : Setup} (h : Prepared s) (hg : GlobalGrid s.g) (ho : OceanFull s.g) (useObp : Bool) (n : ℕ)
    (d : ℕ → Month) (x x' y y' D D' : ℕ → V3) (h1 : onePass s .uniform .inv useObp n d x = some (D, y))
    (h2 : onePass s .uniform .inv useObp n d x' = some (D', y')) :
    misfit s.g n y y' ≤ rate s ^ 2 * misfit s.g n x x' := by
  have f := h.facts
  have hsp : OceanSpans s.g := fun x hx => (ho x 0 hx).1
  have hd := det_ne f hsp
  rw [onePass_eq f hd, Option.some.injEq, Prod.mk.injEq] at h1 h2
  obtain ⟨-, rfl⟩ := h1
  obtain ⟨-, rfl⟩ := h2
  rw [misfit_eq f, misfit_eq f]
  have hW := wgt_nonneg (g := s.g) f.u.lats
  have hd' : (Alg.gram (cells s.g) (wgt s.g) (Yc s)).det ≠ 0 := by rw [← imat_eq]; exact hd
  have e : ∀ t, (fun j => centre n (fun t => restore s (d t) ((imat s)⁻¹.mulVec (rhs s useObp (d t) (x t)))) t j -
      centre n (fun t => restore s (d t) ((imat s)⁻¹.mulVec (rhs s useObp (d t) (x' t)))) t j) =
      fun j => (upd s useObp (d t) (x t) j - upd s useObp (d t) (x' t) j) -
        (∑ u ∈ range n, (upd s useObp (d u) (x u) j - upd s useObp (d u) (x' u) j)) / n := by
    intro t; funext j
    unfold centre upd
    rw [sum_sub_distrib]; ring
  simp only [e]
  refine le_trans (Alg.centre_Q (cells s.g) (wgt s.g) (Yc s) hW n
    (fun t j => upd s useObp (d t) (x t) j - upd s useObp (d t) (x' t) j)) ?_
  rw [mul_sum]
  apply sum_le_sum; intro t _
  have e2 : (fun j => upd s useObp (d t) (x t) j - upd s useObp (d t) (x' t) j) =
      fun j => s.wt 1 / oarea s * (∑ c, mo s c * (x t c - x' t c)) * pj s j := by
    funext j; exact upd_diff f hg useObp (d t) (x t) (x' t) j
  rw [e2]
  exact Alg.shrink (cells s.g) (wgt s.g) (Yc s) hW hd' (s.wt 1 / oarea s) (fun c => x t c - x' t c)

/-- C74: the passes are a contraction: two series after a pass differ less than before, by a factor below
one that depends only on the ocean, the grid and the smoothing -/
theorem passes_contract (s : Setup) (h : Prepared s) (hg : GlobalGrid s.g) (ho : OceanFull s.g) :
    ∃ rho : ℝ, 0 ≤ rho ∧ rho < 1 ∧ ∀ (useObp : Bool) (n : ℕ) (d : ℕ → Month) (x x' y y' D D' : ℕ → V3),
      onePass s .uniform .inv useObp n d x = some (D, y) → onePass s .uniform .inv useObp n d x' = some (D', y') →
      misfit s.g n y y' ≤ rho ^ 2 * misfit s.g n x x' :=
  ⟨rate s, (rate_bounds h ho).1, (rate_bounds h ho).2,
    fun useObp n d x x' y y' D D' h1 h2 => pass_shrinks h hg ho useObp n d x x' y y' D D' h1 h2⟩

/-- Specification: a series of degree one coefficients in terms of mass, GIA and atmosphere removed -/
noncomputable def asMass (s : Setup) (d : Month) (x : V3) : V3 := fun j =>
  massFactor s.E s.kl 1 * (x j - deg1 d.gia j - deg1 d.atm j)

/-- Specification: mean over the months removed -/
noncomputable def anomaly (n : ℕ) (x : ℕ → V3) : ℕ → V3 := fun t j => x t j - (∑ u ∈ range n, x u j) / n

theorem truth_fixed {s : Setup} (h : Prepared s) (hg : GlobalGrid s.g) (ho : OceanFull s.g) (useObp : Bool) (n : ℕ)
    (d : ℕ → Month) (tau : ℕ → V3)
    (hphys : ∀ t < n, OceanBalance s (d t) (obpTerm useObp (d t)) (tau t) (asMass s (d t) (tau t))) :
    ∃ D y, onePass s .uniform .inv useObp n d (anomaly n tau) = some (D, y) ∧ ∀ t < n, y t = anomaly n tau t := by
  have f := h.facts
  have hsp : OceanSpans s.g := fun x hx => (ho x 0 hx).1
  have hd := det_ne f hsp
  refine ⟨_, _, onePass_eq f hd useObp n d _, ?_⟩
  intro t ht
  have h1 : ∀ u < n, upd s useObp (d u) (tau u) = tau u := by
    intro u hu
    have := (balance_iff f hsp useObp (d u) (tau u) _).1 (hphys u hu)
    unfold upd
    rw [← this]
    funext j
    unfold restore asMass
    rw [dfac_eq]
    have := dfac_ne f
    rw [dfac_eq] at this
    rw [mul_div_cancel_left₀ _ this]
    ring
  have h2 : ∀ u < n, ∀ j, upd s useObp (d u) (anomaly n tau u) j =
      tau u j - s.wt 1 / oarea s * (∑ c, mo s c * ((∑ u ∈ range n, tau u c) / n)) * pj s j := by
    intro u hu j
    have := upd_diff f hg useObp (d u) (tau u) (anomaly n tau u) j
    rw [h1 u hu] at this
    have e : ∑ c, mo s c * (tau u c - anomaly n tau u c) = ∑ c, mo s c * ((∑ u ∈ range n, tau u c) / n) := by
      apply sum_congr rfl; intro c _; unfold anomaly; ring
    rw [e] at this
    linarith
  funext j
  unfold centre
  show upd s useObp (d t) (anomaly n tau t) j - (∑ u ∈ range n, upd s useObp (d u) (anomaly n tau u) j) / n = _
  rw [h2 t ht, sum_congr rfl (fun u hu => h2 u (mem_range.1 hu) j), sum_sub_distrib, sum_const, card_range,
    nsmul_eq_mul]
  have hn : (n : ℝ) ≠ 0 := by exact_mod_cast (by omega : n ≠ 0)
  unfold anomaly
  field_simp
  ring

theorem misfit_congr (g : Grid) (n : ℕ) (x y z : ℕ → V3) (h : ∀ t < n, y t = z t) : misfit g n x y = misfit g n x z := by
  unfold misfit
  apply sum_congr rfl; intro t ht
  rw [h t (mem_range.1 ht)]

/-- C74: recovery.  Suppose the months come from geocenter coefficients `tau` for which the mass over the
ocean has the degree one coefficients of the layer that compensates the mass on land (plus what the
ocean model adds).  Then after `j` passes from any starting series the misfit of the estimate to `tau`
(less its mean) is at most `rho^(2j)` times the misfit of the start, with `rho < 1` a constant of the
ocean, the grid and the smoothing.  In particular the truth is returned unchanged when started from. -/
theorem degree_one_recovered (s : Setup) (h : Prepared s) (hg : GlobalGrid s.g) (ho : OceanFull s.g) :
    ∃ rho : ℝ, 0 ≤ rho ∧ rho < 1 ∧ ∀ (useObp it : Bool) (n : ℕ) (d : ℕ → Month) (tau x y : ℕ → V3),
      (∀ t < n, OceanBalance s (d t) (obpTerm useObp (d t)) (tau t) (asMass s (d t) (tau t))) →
      calcDegreeOne s .uniform .inv useObp it n d x = some y →
      ∃ j, 1 ≤ j ∧ j ≤ (if it then 15 else 1) ∧
        misfit s.g n y (anomaly n tau) ≤ rho ^ (2 * j) * misfit s.g n x (anomaly n tau) := by
  refine ⟨rate s, (rate_bounds h ho).1, (rate_bounds h ho).2, ?_⟩
  intro useObp it n d tau x y hphys hc
  obtain ⟨ys, hl1, hl2, hlast, hstep, -, -⟩ := calcDegreeOne_passes s _ _ useObp it n d x y hc
  obtain ⟨D, z, hz, hzt⟩ := truth_fixed h hg ho useObp n d tau hphys
  have hind : ∀ j, j ≤ ys.length → misfit s.g n ((x :: ys)[j]!) (anomaly n tau) ≤
      rate s ^ (2 * j) * misfit s.g n x (anomaly n tau) := by
    intro j
    induction j with
    | zero => intro _; simp
    | succ j ih =>
      intro hj
      obtain ⟨D2, h2⟩ := hstep j (by omega)
      have h3 := pass_shrinks h hg ho useObp n d _ _ _ _ _ _ h2 hz
      rw [misfit_congr s.g n _ z (anomaly n tau) hzt] at h3
      have h4 := ih (by omega)
      have : (x :: ys)[j + 1]! = ys[j]! := by simp
      rw [this]
      have h5 := mul_le_mul_of_nonneg_left h4 (sq_nonneg (rate s))
      calc _ ≤ _ := h3
        _ ≤ _ := h5
        _ = _ := by ring
  refine ⟨ys.length, hl1, hl2, ?_⟩
  have := hind ys.length le_rfl
  have e : (x :: ys)[ys.length]! = y := by
    rw [List.getLast?_eq_getElem?] at hlast
    obtain ⟨m, hm⟩ : ∃ m, ys.length = m + 1 := ⟨ys.length - 1, by omega⟩
    rw [hm] at hlast ⊢
    simp only [Nat.add_sub_cancel] at hlast
    simp [hlast]
  rwa [e] at this

/-- C74: without smoothing the hypothesis of the recovery theorem is the physical one: one field of mass,
degree one included, whose land part is compensated by a layer `w` of uniform thickness and whose ocean
part has the degree one coefficients of that layer (plus what the ocean model adds) -/
theorem balance_unsmoothed (s : Setup) (h : Prepared s) (hw : s.wt 1 = 1) (d : Month) (obp tau : V3) :
    OceanBalance s d obp tau (asMass s d tau) ↔
      ∃ w : ℝ, w * oceanInt s.g (fun _ _ => 1) +
          landInt s.g (massField s.g s.E s.kl s.wt 1 s.LMAX s.MMAX (monthField d tau)) = 0 ∧
        ∀ r, oceanCoef s.g r (massField s.g s.E s.kl s.wt 1 s.LMAX s.MMAX (monthField d tau)) =
          oceanCoef s.g r (fun _ _ => w) + obp r := by
  have f := h.facts
  unfold OceanBalance
  apply exists_congr; intro w
  apply and_congr_right; intro _
  apply forall_congr'; intro r
  have e : oceanCoef s.g r (fun k i => degOneField s.g (asMass s d tau) k i +
        massField s.g s.E s.kl s.wt 2 s.LMAX s.MMAX (monthField d tau) k i) =
      oceanCoef s.g r (massField s.g s.E s.kl s.wt 1 s.LMAX s.MMAX (monthField d tau)) := by
    rw [oceanCoef_eq f r _ (gridMass s 1 (total d tau)) (fun k i h1 h2 => ?_),
      oceanCoef_eq f r (massField s.g s.E s.kl s.wt 1 s.LMAX s.MMAX (monthField d tau)) (gridMass s 1 (total d tau))
        (fun k i h1 h2 => (gridMass_eq f 1 le_rfl _ k i h1 h2).symm)]
    rw [monthField_eq]
    rw [gridMass_split f, comb_Y f _ k i h1 h2, gridMass_eq f 2 (by omega) _ k i h1 h2, hw, dfac_eq]
    congr 1
    unfold degOneField asMass
    simp only [mul_sum]
    apply sum_congr rfl; intro j _
    rw [deg1_total]; ring
  rw [e]

/-- C74: the passes have exactly one fixed series; it has zero mean -/
theorem fixed_series (s : Setup) (h : Prepared s) (hg : GlobalGrid s.g) (ho : OceanFull s.g) (useObp : Bool) (n : ℕ)
    (d : ℕ → Month) :
    ∃ z D, onePass s .uniform .inv useObp n d z = some (D, z) ∧ (∀ j, ∑ t ∈ range n, z t j = 0) ∧
      ∀ z' D', onePass s .uniform .inv useObp n d z' = some (D', z') → ∀ t < n, z' t = z t := by
  have f := h.facts
  have hsp : OceanSpans s.g := fun x hx => (ho x 0 hx).1
  have hd := det_ne f hsp
  have hd' : (Alg.gram (cells s.g) (wgt s.g) (Yc s)).det ≠ 0 := by rw [← imat_eq]; exact hd
  obtain ⟨hr0, hr1⟩ := rate_bounds h ho
  set F : ℕ → V3 := centre n fun t => upd s useObp (d t) 0 with hF
  have hFm : ∀ j, ∑ t ∈ range n, F t j = 0 := by
    intro j
    rw [hF]; unfold centre
    rw [sum_sub_distrib, sum_const, card_range, nsmul_eq_mul]
    rcases Nat.eq_zero_or_pos n with hn | hn
    · subst hn; simp
    · have : (n : ℝ) ≠ 0 := by exact_mod_cast hn.ne'
      field_simp; ring
  -- the fixed series
  set kap := s.wt 1 / oarea s with hkap
  let z : ℕ → V3 := fun t j => F t j + kap * ((∑ c, mo s c * F t c) / (1 - rate s)) * pj s j
  have hq : ∑ c, mo s c * pj s c = Alg.q (cells s.g) (wgt s.g) (Yc s) := rfl
  have hz1 : ∀ t, ∑ c, mo s c * z t c = (∑ c, mo s c * F t c) / (1 - rate s) := by
    intro t
    have : ∑ c, mo s c * z t c = ∑ c, mo s c * F t c +
        kap * ((∑ c, mo s c * F t c) / (1 - rate s)) * ∑ c, mo s c * pj s c := by
      rw [mul_sum, ← sum_add_distrib]; apply sum_congr rfl; intro c _; ring
    rw [this, hq]
    have hne : 1 - rate s ≠ 0 := by linarith
    have hr : rate s = kap * Alg.q (cells s.g) (wgt s.g) (Yc s) := rfl
    rw [eq_div_iff hne, add_mul, mul_right_comm kap, ← hr, mul_assoc, div_mul_cancel₀ _ hne]
    ring
  have hzm : ∀ j, ∑ t ∈ range n, z t j = 0 := by
    intro j
    show ∑ t ∈ range n, (F t j + kap * ((∑ c, mo s c * F t c) / (1 - rate s)) * pj s j) = 0
    rw [sum_add_distrib, hFm, zero_add, ← sum_mul, ← mul_sum, ← sum_div, sum_comm]
    rw [sum_eq_zero (fun c _ => by rw [← mul_sum, hFm c, mul_zero])]
    simp
  have hdiff : ∀ x : ℕ → V3, ∀ t j, upd s useObp (d t) (x t) j =
      upd s useObp (d t) 0 j + kap * (∑ c, mo s c * x t c) * pj s j := by
    intro x t j
    have := upd_diff f hg useObp (d t) (x t) 0 j
    simp only [Pi.zero_apply, sub_zero] at this
    rw [hkap]; linarith
  have hz2 : centre n (fun t => upd s useObp (d t) (z t)) = z := by
    funext t j
    unfold centre
    simp only [hdiff z]
    have h0 : ∑ t ∈ range n, ∑ c, mo s c * z t c = 0 := by
      rw [sum_comm]
      exact sum_eq_zero (fun c _ => by rw [← mul_sum, hzm c, mul_zero])
    rw [sum_add_distrib, ← sum_mul, ← mul_sum, h0, hz1]
    show _ = F t j + kap * ((∑ c, mo s c * F t c) / (1 - rate s)) * pj s j
    rw [hF]; unfold centre; ring
  refine ⟨z, fun t => (imat s)⁻¹.mulVec (rhs s useObp (d t) (z t)), ?_, hzm, ?_⟩
  · rw [onePass_eq f hd]
    congr 2
  · intro z' D' h'
    have h0 : onePass s .uniform .inv useObp n d z =
        some (fun t => (imat s)⁻¹.mulVec (rhs s useObp (d t) (z t)), z) := by
      rw [onePass_eq f hd]; congr 2
    have hs := pass_shrinks h hg ho useObp n d z' z z' z D' _ h' h0
    have hW := wgt_nonneg (g := s.g) f.u.lats
    have hn : ∀ t ∈ range n, 0 ≤ Alg.Q (cells s.g) (wgt s.g) (Alg.comb (Yc s) fun j => z' t j - z t j)
        (Alg.comb (Yc s) fun j => z' t j - z t j) := fun t _ => Alg.Q_self_nonneg _ _ hW _
    rw [misfit_eq f] at hs
    have h0 : ∑ t ∈ range n, Alg.Q (cells s.g) (wgt s.g) (Alg.comb (Yc s) fun j => z' t j - z t j)
        (Alg.comb (Yc s) fun j => z' t j - z t j) = 0 := by
      have h1 := sum_nonneg hn
      have h2 : rate s ^ 2 < 1 := by nlinarith
      refine le_antisymm ?_ h1
      by_contra hc
      have := mul_lt_mul_of_pos_right h2 (not_le.1 hc)
      linarith
    intro t ht
    have h1 := (sum_eq_zero_iff_of_nonneg hn).1 h0 t (mem_range.2 ht)
    have h2 := spans_of f hsp _ (Alg.Q_self_zero _ _ hW _ h1)
    funext j
    have := congrFun h2 j
    simp only [Pi.zero_apply] at this
    linarith

/-- C74: whatever the observed coefficients of degree 2 and above, exactly one geocenter is in balance with
them: the hypothesis of the recovery theorem holds for one `tau` per month -/
theorem balanced_geocenter (s : Setup) (h : Prepared s) (hg : GlobalGrid s.g) (ho : OceanFull s.g) (useObp : Bool)
    (d : Month) : ∃! tau, OceanBalance s d (obpTerm useObp d) tau (asMass s d tau) := by
  have f := h.facts
  have hsp : OceanSpans s.g := fun x hx => (ho x 0 hx).1
  obtain ⟨hr0, hr1⟩ := rate_bounds h ho
  have hne : 1 - rate s ≠ 0 := by linarith
  have hdf := dfac_ne f
  have hb : ∀ tau, OceanBalance s d (obpTerm useObp d) tau (asMass s d tau) ↔ upd s useObp d tau = tau := by
    intro tau
    rw [balance_iff f hsp]
    unfold upd restore asMass
    rw [← dfac_eq]
    constructor
    · intro e
      rw [← e]; funext j
      rw [mul_div_cancel_left₀ _ hdf]; ring
    · intro e
      funext j
      have := congrFun e j
      rw [← this]
      field_simp
      ring
  set kap := s.wt 1 / oarea s with hkap
  have hr : rate s = kap * ∑ c, mo s c * pj s c := rfl
  have hdiff : ∀ x y j, upd s useObp d x j = upd s useObp d y j + kap * (∑ c, mo s c * (x c - y c)) * pj s j := by
    intro x y j
    have := upd_diff f hg useObp d x y j
    rw [hkap]; linarith
  set F := upd s useObp d 0 with hF
  refine ⟨fun j => F j + kap * ((∑ c, mo s c * F c) / (1 - rate s)) * pj s j, ?_, ?_⟩
  · dsimp only
    rw [hb]
    funext j
    rw [hdiff _ 0 j]
    have : ∑ c, mo s c * (F c + kap * ((∑ c, mo s c * F c) / (1 - rate s)) * pj s c - (0 : V3) c) =
        (∑ c, mo s c * F c) / (1 - rate s) := by
      have e : ∑ c, mo s c * (F c + kap * ((∑ c, mo s c * F c) / (1 - rate s)) * pj s c - (0 : V3) c) =
          ∑ c, mo s c * F c + kap * ((∑ c, mo s c * F c) / (1 - rate s)) * ∑ c, mo s c * pj s c := by
        rw [mul_sum, ← sum_add_distrib]; apply sum_congr rfl; intro c _; simp only [Pi.zero_apply]; ring
      rw [e, eq_div_iff hne, add_mul, mul_right_comm kap, ← hr, mul_assoc, div_mul_cancel₀ _ hne]
      ring
    rw [this]
  · intro tau ht
    rw [hb] at ht
    have h1 : ∀ j, tau j = F j + kap * (∑ c, mo s c * tau c) * pj s j := by
      intro j
      have := hdiff tau 0 j
      simp only [Pi.zero_apply, sub_zero] at this
      rw [ht] at this
      exact this
    have h2 : ∑ c, mo s c * tau c = (∑ c, mo s c * F c) / (1 - rate s) := by
      have e : ∑ c, mo s c * tau c = ∑ c, mo s c * F c + kap * (∑ c, mo s c * tau c) * ∑ c, mo s c * pj s c := by
        have e' : ∀ q : ℝ, ∑ c, mo s c * (F c + kap * q * pj s c) =
            ∑ c, mo s c * F c + kap * q * ∑ c, mo s c * pj s c := by
          intro q
          rw [mul_sum, ← sum_add_distrib]; apply sum_congr rfl; intro c _; ring
        rw [← e']; exact sum_congr rfl fun c _ => by rw [← h1 c]
      rw [mul_right_comm, ← hr] at e
      rw [eq_div_iff hne]; linarith
    funext j
    rw [h1 j, h2]

/-- C74: any least squares driver (a solution of the normal equations) gives the result of `inv` -/
theorem solvers_agree (s : Setup) (h : Prepared s) (ho : OceanSpans s.g) (f : Matrix (Fin 3) (Fin 3) ℝ → V3 → V3)
    (hf : ∀ (A : Matrix (Fin 3) (Fin 3) ℝ) b, (A.transpose * A).mulVec (f A b) = A.transpose.mulVec b) (useObp it : Bool) (n : ℕ)
    (d : ℕ → Month) (x : ℕ → V3) :
    calcDegreeOne s .uniform (.lsq f) useObp it n d x = calcDegreeOne s .uniform .inv useObp it n d x := by
  have hd := det_ne h.facts ho
  have hu : IsUnit (imat s).det := isUnit_iff_ne_zero.2 hd
  have hut : IsUnit (imat s).transpose.det := by rw [Matrix.det_transpose]; exact hu
  have key : ∀ b, f (imat s) b = (imat s)⁻¹.mulVec b := by
    intro b
    have h1 := congrArg ((imat s).transpose⁻¹.mulVec) (hf (imat s) b)
    rw [Matrix.mulVec_mulVec, Matrix.mulVec_mulVec, ← Matrix.mul_assoc, Matrix.nonsing_inv_mul _ hut,
      Matrix.one_mul, Matrix.one_mulVec] at h1
    have h2 := congrArg ((imat s)⁻¹.mulVec) h1
    rwa [Matrix.mulVec_mulVec, Matrix.nonsing_inv_mul _ hu, Matrix.one_mulVec] at h2
  have hs : ∀ b, solve (.lsq f) (imat s) b = solve .inv (imat s) b := by
    intro b
    unfold solve
    dsimp only
    rw [if_neg hd, key]
  have hdm : ∀ d x, dmat s .uniform (.lsq f) useObp d x = dmat s .uniform .inv useObp d x := by
    intro d x; unfold dmat; simp only [hs]
  have h1 : ∀ x, onePass s .uniform (.lsq f) useObp n d x = onePass s .uniform .inv useObp n d x := by
    intro x; unfold onePass; simp only [hdm]
  have h2 : ∀ fuel x, passes s .uniform (.lsq f) useObp n d fuel x = passes s .uniform .inv useObp n d fuel x := by
    intro fuel
    induction fuel with
    | zero => intro x; rfl
    | succ k ih => intro x; unfold passes; simp only [h1, ih]
  unfold calcDegreeOne
  rw [h2]

/-- C74 (defect): a solver name that is not recognised, such as the default `SOLVER=None` of the
function, is not an error: the result is the anomaly of the GIA and atmospheric corrections alone -/
theorem unknown_solver (s : Setup) (h : Prepared s) (useObp it : Bool) (n : ℕ) (d : ℕ → Month) (x : ℕ → V3) :
    calcDegreeOne s .uniform .other useObp it n d x =
      some (anomaly n fun t j => deg1 (d t).gia j + deg1 (d t).atm j) := by
  have f := h.facts
  have hdm : ∀ d x, dmat s .uniform .other useObp d x = some fun _ => 0 := by
    intro d x; unfold dmat; rw [eustatic_eq f]; rfl
  have h1 : ∀ x, onePass s .uniform .other useObp n d x =
      some (fun _ _ => 0, centre n fun t => restore s (d t) fun _ => 0) := by
    intro x; unfold onePass allMonths; simp only [hdm]; simp
  have h2 : ∀ fuel x, ∃ ys, passes s .uniform .other useObp n d (fuel + 1) x = some (ys, fun _ _ => 0) := by
    intro fuel
    induction fuel with
    | zero =>
      intro x; unfold passes; rw [h1]
      simp
    | succ k ih =>
      intro x
      unfold passes; rw [h1]
      simp only [Option.bind_eq_bind, Option.bind_some]
      split_ifs
      · obtain ⟨ys, hy⟩ := ih (centre n fun t => restore s (d t) fun _ => 0)
        rw [hy]; exact ⟨_, rfl⟩
      · exact ⟨_, rfl⟩
  have h3 : ∃ k, maxIter it = k + 1 := by cases it <;> exact ⟨_, rfl⟩
  obtain ⟨k, hk⟩ := h3
  obtain ⟨ys, hy⟩ := h2 k x
  unfold calcDegreeOne
  rw [hk, hy]
  simp only [Option.map_some, Option.some.injEq]
  unfold centre anomaly restore
  simp

end Verif.DegreeOne
