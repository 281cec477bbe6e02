import Verif.Geocenter.Model
import Mathlib.Tactic.FieldSimp
import Mathlib.Tactic.Ring
import Mathlib.Tactic.NormNum
import Mathlib.Tactic.Positivity
import Mathlib.Tactic.Linarith

/-!
# C29 geocenter conversions, C60 reading of degree-one files
-/
namespace Verif.Geocenter
variable {n : ℕ}

/-! ## Specification -/

/-- all three attributes are present, with these values -/
def Triple.Has (t : Triple n) (z x y : Ser n) : Prop := t = ⟨some z, some x, some y⟩

theorem sqrt3_ne : Real.sqrt 3 ≠ 0 := by positivity

theorem rhoRad_ne : rhoRad ≠ 0 := by unfold rhoRad; norm_num

/-- C29: the documented formula of `to_cartesian`: `Z = C10 r sqrt(3)/(1+k)` and so on; the
coefficients and the other attributes are unchanged. -/
theorem toCartesian_spec (g : Geo n) (kl : ℝ) (c10 c11 s11 : Ser n) (h : g.coef.Has c10 c11 s11) :
    (toCartesian g kl).cart.Has (fun i => c10 i * g.radius * Real.sqrt 3 / (1 + kl))
      (fun i => c11 i * g.radius * Real.sqrt 3 / (1 + kl))
      (fun i => s11 i * g.radius * Real.sqrt 3 / (1 + kl)) ∧
    (toCartesian g kl).coef = g.coef ∧ (toCartesian g kl).err = g.err ∧
    (toCartesian g kl).time = g.time ∧ (toCartesian g kl).month = g.month := by
  unfold Triple.Has at *
  refine ⟨?_, rfl, rfl, rfl, rfl⟩
  simp [toCartesian, tryBlock, h]

/-- C29: `from_cartesian` undoes `to_cartesian` for coefficients and errors. -/
theorem fromCartesian_toCartesian (g : Geo n) (kl : ℝ) (hk : kl ≠ -1) (hr : g.radius ≠ 0)
    (c10 c11 s11 e10 e11 f11 : Ser n) (h : g.coef.Has c10 c11 s11) (he : g.err.Has e10 e11 f11) :
    ∃ r, fromCartesian (toCartesian g kl) kl = some r ∧ r.coef = g.coef ∧ r.err = g.err ∧
      r.time = g.time ∧ r.month = g.month := by
  have h1 : 1 + kl ≠ 0 := fun h => hk (by linarith)
  have h3 := sqrt3_ne
  have key : ∀ c : Ser n, (fun i => (1 + kl) * (c i * g.radius * Real.sqrt 3 / (1 + kl)) /
      (g.radius * Real.sqrt 3)) = c := by
    intro c; funext i; field_simp
  obtain ⟨gc, ge, gx, gs, gr, gt, gm⟩ := g
  unfold Triple.Has at *
  dsimp only at *
  subst h he
  refine ⟨_, rfl, ?_, ?_, rfl, rfl⟩
  · simp only [toCartesian, key]
  · simp only [toCartesian, tryBlock, key]

/-- C29: without errors the coefficients are still recovered and no errors appear. -/
theorem fromCartesian_toCartesian_noErr (g : Geo n) (kl : ℝ) (hk : kl ≠ -1) (hr : g.radius ≠ 0)
    (c10 c11 s11 : Ser n) (h : g.coef.Has c10 c11 s11) (he : g.err = noTriple n)
    (hs : g.sig = noTriple n) :
    ∃ r, fromCartesian (toCartesian g kl) kl = some r ∧ r.coef = g.coef ∧ r.err = g.err := by
  have h1 : 1 + kl ≠ 0 := fun h => hk (by linarith)
  have h3 := sqrt3_ne
  have key : ∀ c : Ser n, (fun i => (1 + kl) * (c i * g.radius * Real.sqrt 3 / (1 + kl)) /
      (g.radius * Real.sqrt 3)) = c := by
    intro c; funext i; field_simp
  obtain ⟨gc, ge, gx, gs, gr, gt, gm⟩ := g
  unfold Triple.Has at *
  dsimp only at *
  subst h he hs
  refine ⟨_, rfl, ?_, ?_⟩
  · simp only [toCartesian, key]
  · simp [toCartesian, tryBlock, noTriple]

/-- C29: `to_cartesian` undoes `from_cartesian`. -/
theorem toCartesian_fromCartesian (g : Geo n) (kl : ℝ) (hk : kl ≠ -1) (hr : g.radius ≠ 0)
    (z x y : Ser n) (h : g.cart.Has z x y) :
    ∃ r, fromCartesian g kl = some r ∧ (toCartesian r kl).cart = g.cart := by
  have h1 : 1 + kl ≠ 0 := fun h => hk (by linarith)
  have h3 := sqrt3_ne
  have key : ∀ c : Ser n, (fun i => (1 + kl) * c i / (g.radius * Real.sqrt 3) * g.radius *
      Real.sqrt 3 / (1 + kl)) = c := by
    intro c; funext i; field_simp
  obtain ⟨gc, ge, gx, gs, gr, gt, gm⟩ := g
  unfold Triple.Has at *
  dsimp only at *
  subst h
  refine ⟨_, rfl, ?_⟩
  simp only [toCartesian, tryBlock, key]

/-- C29: an object without cartesian coordinates: `from_cartesian` raises. -/
theorem fromCartesian_missing (g : Geo n) (kl : ℝ) (h : g.cart = noTriple n) :
    fromCartesian g kl = none := by
  simp [fromCartesian, mustBlock, h, noTriple]

/-- value of `scaleBy` -/
theorem scaleBy_spec (g : Geo n) (k : ℝ) (c10 c11 s11 : Ser n) (h : g.coef.Has c10 c11 s11) :
    ∃ r, scaleBy g k = some r ∧
      r.coef.Has (fun i => c10 i * k) (fun i => c11 i * k) (fun i => s11 i * k) ∧
      (∀ e f d, g.err.Has e f d →
        r.err.Has (fun i => e i * k) (fun i => f i * k) (fun i => d i * k)) ∧
      (g.err = noTriple n → r.err = noTriple n) := by
  obtain ⟨gc, ge, gx, gs, gr, gt, gm⟩ := g
  unfold Triple.Has at *
  dsimp only at *
  subst h
  refine ⟨_, rfl, rfl, ?_, ?_⟩
  · intro e f d he; simp [tryBlock, he]
  · intro he; simp [tryBlock, he, noTriple]

theorem divBy_eq (g : Geo n) (k : ℝ) : divBy g k = scaleBy g k⁻¹ := by
  simp only [divBy, scaleBy, div_eq_mul_inv]

/-- C29: the documented factor of `to_cmwe` -/
theorem toCmwe_spec (g : Geo n) (kl : ℝ) (c10 c11 s11 : Ser n) (h : g.coef.Has c10 c11 s11) :
    ∃ r, toCmwe g kl = some r ∧ r.coef.Has (fun i => c10 i * ((5.517 * 6.371e8) / (1 + kl)))
      (fun i => c11 i * ((5.517 * 6.371e8) / (1 + kl)))
      (fun i => s11 i * ((5.517 * 6.371e8) / (1 + kl))) := by
  obtain ⟨r, h1, h2, -⟩ := scaleBy_spec g (rhoRad / (1 + kl)) c10 c11 s11 h
  exact ⟨r, h1, h2⟩

/-- C29: millimetres are ten times centimetres. -/
theorem toMmwe_ten (g : Geo n) (kl : ℝ) (c10 c11 s11 : Ser n) (h : g.coef.Has c10 c11 s11) :
    ∃ r r', toCmwe g kl = some r ∧ toMmwe g kl = some r' ∧
      ∃ a b c, r.coef.Has a b c ∧
        r'.coef.Has (fun i => 10 * a i) (fun i => 10 * b i) (fun i => 10 * c i) := by
  obtain ⟨r, h1, h2, -⟩ := scaleBy_spec g (rhoRad / (1 + kl)) c10 c11 s11 h
  obtain ⟨r', h1', h2', -⟩ := scaleBy_spec r 10 _ _ _ h2
  refine ⟨r, r', h1, by rw [toMmwe, toCmwe, h1]; exact h1', _, _, _, h2, ?_⟩
  unfold Triple.Has at *
  rw [h2']; simp only [mul_comm]

/-- scaling by reciprocal factors one after the other restores coefficients and errors -/
theorem scale_back (g : Geo n) (k k' : ℝ) (hk : k * k' = 1) (c10 c11 s11 : Ser n)
    (h : g.coef.Has c10 c11 s11) :
    ∃ r, (scaleBy g k).bind (fun g => scaleBy g k') = some r ∧ r.coef = g.coef ∧
      (∀ e f d, g.err.Has e f d → r.err = g.err) ∧ (g.err = noTriple n → r.err = g.err) := by
  obtain ⟨r, h1, h2, h3, h4⟩ := scaleBy_spec g k c10 c11 s11 h
  obtain ⟨r', h1', h2', h3', h4'⟩ := scaleBy_spec r k' _ _ _ h2
  have key : ∀ c : Ser n, (fun i => c i * k * k') = c := by
    intro c; funext i; rw [mul_assoc, hk, mul_one]
  refine ⟨r', by rw [h1]; exact h1', ?_, ?_, ?_⟩
  · unfold Triple.Has at *; rw [h2', h]; simp only [key]
  · intro e f d he
    have := h3' _ _ _ (h3 e f d he)
    unfold Triple.Has at *; rw [this, he]; simp only [key]
  · intro he; rw [h4' (h4 he), he]

/-- C29: `from_cmwe` undoes `to_cmwe`, coefficients and errors. -/
theorem fromCmwe_toCmwe (g : Geo n) (kl : ℝ) (hk : kl ≠ -1) (c10 c11 s11 : Ser n)
    (h : g.coef.Has c10 c11 s11) :
    ∃ r, (toCmwe g kl).bind (fun g => fromCmwe g kl) = some r ∧ r.coef = g.coef ∧
      (∀ e f d, g.err.Has e f d → r.err = g.err) ∧ (g.err = noTriple n → r.err = g.err) := by
  have h1 : 1 + kl ≠ 0 := fun h => hk (by linarith)
  have h2 := rhoRad_ne
  exact scale_back g _ _ (by field_simp) c10 c11 s11 h

/-- C29: `from_mmwe` undoes `to_mmwe`. -/
theorem fromMmwe_toMmwe (g : Geo n) (kl : ℝ) (hk : kl ≠ -1) (c10 c11 s11 : Ser n)
    (h : g.coef.Has c10 c11 s11) :
    ∃ r, (toMmwe g kl).bind (fun g => fromMmwe g kl) = some r ∧ r.coef = g.coef := by
  have h1 : 1 + kl ≠ 0 := fun h => hk (by linarith)
  have h2 := rhoRad_ne
  obtain ⟨r1, a1, b1, -⟩ := scaleBy_spec g (rhoRad / (1 + kl)) c10 c11 s11 h
  obtain ⟨r2, a2, b2, -⟩ := scaleBy_spec r1 10 _ _ _ b1
  obtain ⟨r3, a3, b3, -⟩ := scaleBy_spec r2 ((1 + kl) / rhoRad) _ _ _ b2
  obtain ⟨r4, a4, b4, -⟩ := scaleBy_spec r3 (10 : ℝ)⁻¹ _ _ _ b3
  have key : ∀ c : Ser n, (fun i => c i * (rhoRad / (1 + kl)) * 10 * ((1 + kl) / rhoRad) * (10 : ℝ)⁻¹)
      = c := by
    intro c; funext i; field_simp
  refine ⟨r4, ?_, ?_⟩
  · simp only [toMmwe, toCmwe, fromMmwe, fromCmwe, a1, a2, a3, Option.bind_some, divBy_eq, a4]
  · unfold Triple.Has at *; rw [b4, h]; simp only [key]

/-- C29: the matrices hold C10 at (1,0), C11 at (1,1), S11 at (1,1), and zero elsewhere. -/
theorem toMatrix_spec (c10 c11 s11 : Ser n) (l m : ℕ) :
    (toMatrix c10 c11 s11).1 l m =
      (if l = 1 ∧ m = 0 then c10 else if l = 1 ∧ m = 1 then c11 else fun _ => 0) ∧
    (toMatrix c10 c11 s11).2 l m = (if l = 1 ∧ m = 1 then s11 else fun _ => 0) := by
  constructor
  · simp only [toMatrix]
    by_cases h : l = 1 ∧ m = 1
    · obtain ⟨rfl, rfl⟩ := h; simp
    · simp [h]
  · simp [toMatrix]

/-- C29: `from_matrix` undoes `to_matrix`. -/
theorem fromMatrix_toMatrix (g : Geo n) (c10 c11 s11 : Ser n) :
    (fromMatrix g (toMatrix c10 c11 s11).1 (toMatrix c10 c11 s11).2).coef.Has c10 c11 s11 := by
  simp [Triple.Has, fromMatrix, toMatrix]

/-- C29: adding then subtracting (or subtracting then adding) an object restores the
coefficients; multiplying then dividing restores them where the divisor is nonzero. -/
theorem combine_back (op op' : ℝ → ℝ → ℝ) (g h : Geo n) (a b c a' b' c' : Ser n)
    (hg : g.coef.Has a b c) (hh : h.coef.Has a' b' c')
    (hop : ∀ i, op' (op (a i) (a' i)) (a' i) = a i ∧ op' (op (b i) (b' i)) (b' i) = b i ∧
      op' (op (c i) (c' i)) (c' i) = c i) :
    ∃ r r', combine op g h = some r ∧ combine op' r h = some r' ∧ r'.coef = g.coef ∧
      r'.time = g.time ∧ r'.month = g.month := by
  unfold Triple.Has at *
  obtain ⟨gc, ge, gx, gs, gr, gt, gm⟩ := g
  obtain ⟨hc, he, hx, hs, hr, ht, hm⟩ := h
  simp only at hg hh
  subst hg hh
  refine ⟨_, _, rfl, rfl, ?_, rfl, rfl⟩
  simp [fun i => (hop i).1, fun i => (hop i).2.1, fun i => (hop i).2.2]

/-- C29: add then subtract -/
theorem subtract_add (g h : Geo n) (a b c a' b' c' : Ser n)
    (hg : g.coef.Has a b c) (hh : h.coef.Has a' b' c') :
    ∃ r r', combine (· + ·) g h = some r ∧ combine (· - ·) r h = some r' ∧ r'.coef = g.coef ∧
      r'.time = g.time ∧ r'.month = g.month :=
  combine_back _ _ g h a b c a' b' c' hg hh fun i => by simp

/-- C29: multiply then divide -/
theorem divide_multiply (g h : Geo n) (a b c a' b' c' : Ser n)
    (hg : g.coef.Has a b c) (hh : h.coef.Has a' b' c')
    (hz : ∀ i, a' i ≠ 0 ∧ b' i ≠ 0 ∧ c' i ≠ 0) :
    ∃ r r', combine (· * ·) g h = some r ∧ combine (· / ·) r h = some r' ∧ r'.coef = g.coef ∧
      r'.time = g.time ∧ r'.month = g.month :=
  combine_back _ _ g h a b c a' b' c' hg hh fun i => by
    obtain ⟨h1, h2, h3⟩ := hz i
    simp [h1, h2, h3]

/-- C29: removing the mean over a set of dates makes the mean over these dates zero. -/
theorem removeMean_zero (g : Geo n) (idx : List (Fin n)) (hi : idx ≠ []) (a b c : Ser n)
    (h : g.coef.Has a b c) :
    ∃ r a' b' c', removeMean g idx = some r ∧ r.coef.Has a' b' c' ∧
      (idx.map a').sum = 0 ∧ (idx.map b').sum = 0 ∧ (idx.map c').sum = 0 := by
  have key : ∀ s : Ser n, (idx.map fun i => s i - meanOf s idx).sum = 0 := by
    intro s
    have h1 : ∀ (l : List (Fin n)) (c : ℝ), (l.map fun i => s i - c).sum = (l.map s).sum - l.length * c := by
      intro l c
      induction l with
      | nil => simp
      | cons x l ih => simp [ih]; ring
    rw [h1, meanOf]
    have : (idx.length : ℝ) ≠ 0 := by
      rw [Nat.cast_ne_zero]; intro h; exact hi (List.length_eq_zero_iff.1 h)
    field_simp; ring
  obtain ⟨gc, ge, gx, gs, gr, gt, gm⟩ := g
  unfold Triple.Has at *
  simp only at h
  subst h
  exact ⟨_, _, _, _, rfl, rfl, key a, key b, key c⟩

/-- C29 (negative): `copy` replaces the radius by the default one, so for an object with another
radius the cartesian coordinates computed from the copy differ by the ratio of the radii. -/
theorem copy_radius (g : Geo n) (kl : ℝ) (hr : g.radius ≠ 0) (c10 c11 s11 : Ser n)
    (h : g.coef.Has c10 c11 s11) :
    ∃ z x y, (toCartesian g kl).cart.Has z x y ∧
      (toCartesian (copy g) kl).cart.Has (fun i => defaultRadius / g.radius * z i)
        (fun i => defaultRadius / g.radius * x i) (fun i => defaultRadius / g.radius * y i) := by
  obtain ⟨h1, -⟩ := toCartesian_spec g kl c10 c11 s11 h
  obtain ⟨h2, -⟩ := toCartesian_spec (copy g) kl c10 c11 s11 h
  refine ⟨_, _, _, h1, ?_⟩
  have key : ∀ c : Ser n, (fun i => c i * (copy g).radius * Real.sqrt 3 / (1 + kl)) =
      fun i => defaultRadius / g.radius * (c i * g.radius * Real.sqrt 3 / (1 + kl)) := by
    intro c; funext i
    show c i * defaultRadius * Real.sqrt 3 / (1 + kl) = _
    field_simp
  unfold Triple.Has at *
  rw [h2]; simp only [key]

/-- C29 (negative): `copy` loses the uncertainties of the cartesian coordinates. -/
theorem copy_loses_sigma (g : Geo n) : (copy g).sig = noTriple n := rfl

/-- C29: `copy` keeps the coefficients, their errors, the cartesian coordinates and the dates -/
theorem copy_keeps (g : Geo n) : (copy g).coef = g.coef ∧ (copy g).err = g.err ∧ (copy g).cart = g.cart ∧
    (copy g).time = g.time ∧ (copy g).month = g.month := ⟨rfl, rfl, rfl, rfl, rfl⟩

/-- C29: incomplete coefficients give incomplete coordinates: with only C10 set, Z is computed and X and Y
stay as they were; with only C11 (or S11) set, nothing changes; with S11 missing, Z and X are computed -/
theorem toCartesian_incomplete (g : Geo n) (kl : ℝ) :
    (∀ c, g.coef.z = some c → g.coef.x = none → (toCartesian g kl).cart =
      ⟨some fun i => c i * g.radius * Real.sqrt 3 / (1 + kl), g.cart.x, g.cart.y⟩) ∧
    (∀ c d, g.coef.z = some c → g.coef.x = some d → g.coef.y = none → (toCartesian g kl).cart =
      ⟨some fun i => c i * g.radius * Real.sqrt 3 / (1 + kl), some fun i => d i * g.radius * Real.sqrt 3 / (1 + kl),
        g.cart.y⟩) ∧
    (g.coef.z = none → (toCartesian g kl).cart = g.cart) := by
  refine ⟨fun c h1 h2 => ?_, fun c d h1 h2 h3 => ?_, fun h => ?_⟩
  · unfold toCartesian tryBlock; simp only [h1, h2]
  · unfold toCartesian tryBlock; simp only [h1, h2, h3]
  · unfold toCartesian tryBlock; simp only [h]

/-- the default radius is positive (so the round trips apply to default objects) -/
theorem defaultRadius_pos : 0 < defaultRadius := by
  unfold defaultRadius
  have : (0 : ℝ) < 1 - 1 / 298.257223563 := by norm_num
  positivity

/-- a concrete object meeting the hypotheses -/
example : ∃ g : Geo 2, g.coef.Has (fun _ => 1) (fun _ => 2) (fun _ => 3) ∧
    g.err.Has (fun _ => 1) (fun _ => 1) (fun _ => 1) ∧ g.radius ≠ 0 :=
  ⟨⟨⟨some fun _ => 1, some fun _ => 2, some fun _ => 3⟩, ⟨some fun _ => 1, some fun _ => 1, some fun _ => 1⟩,
    noTriple 2, noTriple 2, defaultRadius, fun _ => 2002, fun _ => 4⟩, rfl, rfl,
    defaultRadius_pos.ne'⟩

/-! ## C60 degree-one files -/

/-- Specification: the lines of a well-formed file: for every date the order-zero line followed by
the order-one line. -/
def pairLines (ps : List (TLine × TLine)) : List TLine := ps.flatMap fun p => [p.1, p.2]

/-- orders are as documented -/
def WellFormed (ps : List (TLine × TLine)) : Prop := ∀ p ∈ ps, p.1.m = 0 ∧ p.2.m = 1

/-- the first `k` dates are filled from the pairs -/
def Filled (ps : List (TLine × TLine)) (k : ℕ) (s : TState) : Prop :=
  s.t = k ∧ ∀ (j : ℕ) (p : TLine × TLine), j < k → ps[j]? = some p →
    s.c10 j = p.1.c ∧ s.ec10 j = p.1.ec ∧ s.c11 j = p.2.c ∧ s.s11 j = p.2.s ∧
    s.ec11 j = p.2.ec ∧ s.es11 j = p.2.es ∧ s.time j = p.2.time ∧ s.month j = p.2.month

theorem tStep_pair (ps : List (TLine × TLine)) (nMon k : ℕ) (s : TState) (p : TLine × TLine)
    (hp : ps[k]? = some p) (hm : p.1.m = 0 ∧ p.2.m = 1) (hk : k < nMon) (hs : Filled ps k s) :
    ∃ s1 s2, tStep nMon s p.1 = .ok s1 ∧ tStep nMon s1 p.2 = .ok s2 ∧ Filled ps (k + 1) s2 := by
  obtain ⟨ht, hf⟩ := hs
  obtain ⟨h0, h1⟩ := hm
  refine ⟨_, _, by
      unfold tStep
      rw [if_neg (by simp [h0]), if_neg (by omega), if_pos h0], by
      unfold tStep
      rw [if_neg (by simp [h1]), if_neg (by simp [h0]; omega), if_neg (by simp [h1])], ?_, ?_⟩
  · simp [h0, h1, ht]
  · intro j q hj hq
    simp only [h0, Int.toNat_zero, Nat.add_zero, ht]
    by_cases hjk : j = k
    · subst hjk
      rw [hp] at hq; obtain rfl := Option.some.inj hq
      simp
    · have := hf j q (by omega) hq
      simp [Function.update_of_ne hjk, this]

theorem fold_pairs (all : List (TLine × TLine)) (nMon : ℕ) (hn : all.length ≤ nMon)
    (hw : WellFormed all) :
    ∀ (done rest : List (TLine × TLine)), all = done ++ rest → ∀ s, Filled all done.length s →
      ∃ s', (pairLines rest).foldlM (tStep nMon) s = .ok s' ∧ Filled all all.length s' := by
  intro done rest
  induction rest generalizing done with
  | nil =>
    intro h s hs
    have hl : all.length = done.length := by rw [h]; simp
    exact ⟨s, rfl, by rw [hl]; exact hs⟩
  | cons p rest ih =>
    intro h s hs
    have hp : all[done.length]? = some p := by rw [h]; simp
    have hlt : done.length < all.length := (List.getElem?_eq_some_iff.1 hp).1
    obtain ⟨s1, s2, a1, a2, a3⟩ := tStep_pair all nMon done.length s p hp
      (hw p (List.mem_of_getElem? hp)) (by omega) hs
    obtain ⟨s', b1, b2⟩ := ih (done ++ [p]) (by rw [h]; simp) s2 (by simpa using a3)
    refine ⟨s', ?_, b2⟩
    show (p.1 :: p.2 :: pairLines rest).foldlM (tStep nMon) s = _
    rw [List.foldlM_cons, a1]
    show (p.2 :: pairLines rest).foldlM (tStep nMon) s1 = _
    rw [List.foldlM_cons, a2]
    exact b1

theorem pairLines_length (ps : List (TLine × TLine)) : (pairLines ps).length = 2 * ps.length := by
  induction ps with
  | nil => rfl
  | cons p ps ih => simp [pairLines] at ih ⊢; omega

/-- C60: reading a file of `k` pairs of lines gives `k` dates, each with the coefficients and errors
of its own two lines, and the time and month of the second. -/
theorem fromTellus_spec (ps : List (TLine × TLine)) (hw : WellFormed ps) :
    ∃ s, fromTellus (pairLines ps) = .ok (ps.length, s) ∧
      ∀ (j : ℕ) (p : TLine × TLine), ps[j]? = some p →
        s.c10 j = p.1.c ∧ s.ec10 j = p.1.ec ∧ s.c11 j = p.2.c ∧ s.s11 j = p.2.s ∧
        s.ec11 j = p.2.ec ∧ s.es11 j = p.2.es ∧ s.time j = p.2.time ∧ s.month j = p.2.month := by
  have hn : (pairLines ps).length / 2 = ps.length := by rw [pairLines_length]; omega
  obtain ⟨s, h1, h2⟩ := fold_pairs ps ps.length le_rfl hw [] ps rfl tInit
    ⟨rfl, fun j p hj => absurd hj (by simp)⟩
  refine ⟨s, ?_, fun j p hp => h2.2 j p (List.getElem?_eq_some_iff.1 hp).1 hp⟩
  unfold fromTellus
  simp only [hn, h1]
  rfl

/-- C60: a truncated file, whose last date has only its order-zero line, is rejected. -/
theorem fromTellus_truncated (ps : List (TLine × TLine)) (hw : WellFormed ps) (ln : TLine)
    (hl : ln.m = 0) : fromTellus (pairLines ps ++ [ln]) = .error .indexError := by
  have hn : (pairLines ps ++ [ln]).length / 2 = ps.length := by
    rw [List.length_append, pairLines_length]; simp; omega
  obtain ⟨s, h1, h2⟩ := fold_pairs ps ps.length le_rfl hw [] ps rfl tInit
    ⟨rfl, fun j p hj => absurd hj (by simp)⟩
  unfold fromTellus
  simp only [hn, List.foldlM_append, h1]
  show Except.map _ ([ln].foldlM (tStep ps.length) s) = _
  rw [List.foldlM_cons]
  have : tStep ps.length s ln = .error .indexError := by
    unfold tStep
    rw [if_neg (by simp [hl]), if_pos (by rw [h2.1])]
  rw [this]; rfl

/-- C60: an order other than 0 and 1 is rejected. -/
theorem fromTellus_order (ps : List (TLine × TLine)) (hw : WellFormed ps) (ln : TLine)
    (rest : List TLine) (hl : ln.m ≠ 0 ∧ ln.m ≠ 1) :
    fromTellus (pairLines ps ++ ln :: rest) = .error .valueError := by
  have hn : ps.length ≤ (pairLines ps ++ ln :: rest).length / 2 := by
    rw [List.length_append, pairLines_length]; simp; omega
  obtain ⟨s, h1, -⟩ := fold_pairs ps _ hn hw [] ps rfl tInit
    ⟨rfl, fun j p hj => absurd hj (by simp)⟩
  unfold fromTellus
  simp only [List.foldlM_append, h1]
  show Except.map _ ((ln :: rest).foldlM (tStep _) s) = _
  rw [List.foldlM_cons]
  have : ∀ k, tStep k s ln = .error .valueError := by
    intro k; unfold tStep; rw [if_pos hl]
  rw [this]; rfl

/-- a well-formed file with two dates -/
example : WellFormed [(⟨0, 1, 0, 1, 0, 2002, 4⟩, ⟨1, 2, 3, 1, 1, 2002, 4⟩),
    (⟨0, 4, 0, 1, 0, 2003, 16⟩, ⟨1, 5, 6, 1, 1, 2003, 16⟩)] := by
  intro p hp; simp at hp; rcases hp with rfl | rfl <;> simp

end Verif.Geocenter
