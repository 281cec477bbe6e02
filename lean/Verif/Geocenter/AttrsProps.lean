import Mathlib.Tactic.Ring
import Verif.Geocenter.Attrs
import Verif.Geocenter.Props
/-!
# C112: attributes of geocenter objects
-/
namespace Verif.Geocenter.Attrs
variable {A : Type}

theorem foldl_keys (step : Map A → String → Map A) (h1 : ∀ m k k', k' ≠ k → step m k k' = m k')
    (val : String → Option (Val A))
    (h2 : ∀ m k, step m k k = (val k).orElse fun _ => m k) (ks : List String) (m : Map A) (k : String) :
    ks.foldl step m k = if k ∈ ks then (val k).orElse fun _ => m k else m k := by
  induction ks generalizing m with
  | nil => rfl
  | cons a ks ih =>
    rw [List.foldl_cons, ih]
    by_cases ha : k = a
    · subst ha
      rw [h2]
      simp only [List.mem_cons, true_or, if_true]
      by_cases hk : k ∈ ks
      · rw [if_pos hk]; cases val k <;> rfl
      · rw [if_neg hk]
    · rw [h1 m a k ha]
      simp [ha]

/-- **C112** `to_dict`: exactly the attributes of the fourteen names that are set, with their values. -/
theorem toDict_right (g : Map A) (k : String) : toDict g k = if k ∈ dictFields then g k else none := by
  unfold toDict
  rw [foldl_keys (toDictStep g) ?_ g ?_]
  · cases g k <;> rfl
  · intro m k k' h
    unfold toDictStep
    cases g k <;> simp [set, h]
  · intro m k
    unfold toDictStep
    cases g k <;> simp [set]

/-- what a dictionary entry gives to the object -/
def offered : Option (Val A) → Option (Val A)
  | some (.arr a) => some (.arr a)
  | some .noneArr => some .noneArr
  | _ => none

/-- **C112** `from_dict`: each of the fourteen attributes for which the dictionary has an array becomes that
array; every other attribute stays as it was, also if the dictionary has None or a number for it. -/
theorem fromDict_right (g d : Map A) (k : String) :
    (∀ a, k ∈ dictFields → d k = some (.arr a) → fromDict g d k = some (.arr a)) ∧
    ((∀ a, d k ≠ some (.arr a)) → d k ≠ some .noneArr → fromDict g d k = g k) ∧
    (k ∉ dictFields → fromDict g d k = g k) := by
  have key : fromDict g d k = if k ∈ dictFields then (offered (d k)).orElse fun _ => g k else g k := by
    unfold fromDict
    refine foldl_keys (fromDictStep d) ?_ (fun k => offered (d k)) ?_ dictFields g k
    · intro m k k' h
      unfold fromDictStep
      rcases d k with _ | (_ | _ | _ | _) <;> simp [set, h]
    · intro m k
      unfold fromDictStep
      rcases d k with _ | (_ | _ | _ | _) <;> simp [set, offered]
  refine ⟨?_, ?_, ?_⟩
  · intro a hk ha
    rw [key, if_pos hk, ha]; rfl
  · intro h1 h2
    rw [key]
    have : offered (d k) = none := by
      unfold offered
      rcases h : d k with _ | (_ | _ | _ | _)
      · rfl
      · rfl
      · exact absurd h (h1 _)
      · exact absurd h h2
      · rfl
    rw [this]
    by_cases hk : k ∈ dictFields <;> simp [hk]
  · intro hk
    rw [key, if_neg hk]

/-- **C112** Round trip: what `to_dict` gave is restored by `from_dict` in a new object, for every attribute of
the fourteen names that holds an array. -/
theorem dict_roundtrip (g : Map A) (k : String) (hk : k ∈ dictFields) (a : A) (ha : g k = some (.arr a)) :
    fromDict (fresh A) (toDict g) k = some (.arr a) := by
  refine (fromDict_right _ _ _).1 a hk ?_
  rw [toDict_right, if_pos hk, ha]

example : "eC10" ∈ dictFields ∧ (set (fresh ℕ) "eC10" (.arr 3)) "eC10" = some (.arr 3) := by
  refine ⟨by decide, rfl⟩

/-- **C112** Deviation: an object that is filled again keeps the attributes that the new dictionary does not
have, e.g. the errors of a previous file. -/
theorem fromDict_stale (g d : Map A) (e : A) (h : g "eC10" = some (.arr e)) (hd : d "eC10" = none) :
    fromDict g d "eC10" = some (.arr e) := by
  rw [(fromDict_right g d "eC10").2.1 (by simp [hd]) (by simp [hd]), h]

/-- **C112** `from_netCDF4`: the last variable of a name in the file becomes the attribute, if the name is one of
the fourteen; other variables are ignored. -/
theorem fromVariables_right (g : Map A) (vars : List (String × A)) (k : String) :
    (∀ pre a post, vars = pre ++ (k, a) :: post → (∀ v ∈ post, v.1 ≠ k) → k ∈ dictFields →
      fromVariables g vars k = some (.arr a)) ∧
    ((∀ v ∈ vars, v.1 ≠ k) → fromVariables g vars k = g k) ∧
    (k ∉ dictFields → fromVariables g vars k = g k) := by
  have hpost : ∀ (post : List (String × A)) (m : Map A), (∀ v ∈ post, v.1 ≠ k) →
      post.foldl (fun d v => set d v.1 (.arr v.2)) m k = m k := by
    intro post
    induction post with
    | nil => intro m _; rfl
    | cons v post ih =>
      intro m h
      rw [List.foldl_cons, ih _ (fun w hw => h w (by simp [hw]))]
      have := h v (by simp)
      simp only [set]
      rw [if_neg (fun hh => this hh.symm)]
  refine ⟨?_, ?_, ?_⟩
  · rintro pre a post rfl hp hk
    refine (fromDict_right _ _ _).1 a hk ?_
    rw [List.foldl_append, List.foldl_cons, hpost post _ hp]
    simp [set]
  · intro h
    have e := hpost vars (fun _ => none) h
    exact (fromDict_right _ _ _).2.1 (by intro a; rw [e]; simp) (by rw [e]; simp)
  · intro hk
    exact (fromDict_right _ _ _).2.2 hk

example : fromVariables (fresh ℕ) [("C10", 1), ("nmon", 2)] "C10" = some (.arr 1) := by
  decide

/-- **C112** `copy`: arrays of eleven names are copied; the uncertainties of the cartesian coordinates and the
file name are not; and an attribute that was None is no longer None but an array that holds it. -/
theorem copy_right (g : Map A) (k : String) :
    (∀ a, k ∈ copyFields → g k = some (.arr a) → copy g k = some (.arr a)) ∧
    (k ∈ copyFields → g k = some .none → copy g k = some .noneArr) ∧
    (k ∈ ["X_sigma", "Y_sigma", "Z_sigma"] → copy g k = none) ∧
    (copy g "filename" = some .none) := by
  have key : ∀ k, copy g k = if k ∈ copyFields then
      (match g k with
        | none => none
        | some (.arr a) => some (.arr a)
        | some .none => some .noneArr
        | some .noneArr => some .noneArr
        | some .plain => some .plain : Option (Val A)).orElse fun _ => fresh A k else fresh A k := by
    intro k
    unfold copy
    refine foldl_keys (copyStep g) ?_ (fun k => match g k with
        | none => none
        | some (.arr a) => some (.arr a)
        | some .none => some .noneArr
        | some .noneArr => some .noneArr
        | some .plain => some .plain) ?_ copyFields (fresh A) k
    · intro m k k' h
      unfold copyStep
      rcases g k with _ | (_ | _ | _ | _) <;> simp [set, h]
    · intro m k
      unfold copyStep
      rcases g k with _ | (_ | _ | _ | _) <;> simp [set]
  refine ⟨?_, ?_, ?_, ?_⟩
  · intro a hk ha
    rw [key, if_pos hk, ha]; rfl
  · intro hk ha
    rw [key, if_pos hk, ha]; rfl
  · intro hk
    rw [key]
    simp only [List.mem_cons, List.not_mem_nil, or_false] at hk
    rcases hk with rfl | rfl | rfl <;> rfl
  · rw [key]; rfl

example : copy (fresh ℕ) "X" = some .noneArr ∧ fresh ℕ "X" = some .none := by
  constructor
  · exact (copy_right _ _).2.1 (by decide) rfl
  · rfl

end Verif.Geocenter.Attrs

namespace Verif.Geocenter
variable {n : ℕ}

/-- **C112** `scale`: a new object with the coefficients multiplied date by date, dates and months as they
were; errors, cartesian coordinates and a special radius are not carried over. -/
theorem scale_right (var : Ser n) (g : Geo n) (a b c : Ser n) (h : g.coef.Has a b c) :
    ∃ s, scale var g = some s ∧ s.coef.Has (fun i => var i * a i) (fun i => var i * b i) (fun i => var i * c i) ∧
      s.time = g.time ∧ s.month = g.month ∧ s.err = noTriple n ∧ s.cart = noTriple n ∧ s.sig = noTriple n ∧
      s.radius = defaultRadius := by
  have e : g.coef = ⟨some a, some b, some c⟩ := h
  unfold scale
  rw [e]
  exact ⟨_, rfl, rfl, rfl, rfl, rfl, rfl, rfl, rfl⟩

/-- **C112** Scaling twice is scaling by the product, and scaling by factors without zero can be undone. -/
theorem scale_scale (v w : Ser n) (g : Geo n) :
    (scale w g).bind (scale v) = scale (fun i => v i * w i) g := by
  unfold scale
  rcases hg : g.coef with ⟨_ | a, _ | b, _ | c⟩ <;> simp [mul_assoc]

theorem scale_undo (v : Ser n) (hv : ∀ i, v i ≠ 0) (g : Geo n) (a b c : Ser n) (h : g.coef.Has a b c) :
    ∃ s, (scale v g).bind (scale fun i => (v i)⁻¹) = some s ∧ s.coef.Has a b c := by
  rw [scale_scale]
  obtain ⟨s, hs, hc, _⟩ := scale_right (fun i => (v i)⁻¹ * v i) g a b c h
  refine ⟨s, hs, ?_⟩
  have e : ∀ (x : Ser n), (fun i => (v i)⁻¹ * v i * x i) = x := by
    intro x; funext i; rw [inv_mul_cancel₀ (hv i), one_mul]
  rwa [e, e, e] at hc

/-- **C112** The cartesian coordinates of a scaled object are the scaled coordinates, for objects with the default
radius. -/
theorem scale_cartesian (k kl : ℝ) (g : Geo n) (hr : g.radius = defaultRadius) (a b c : Ser n)
    (h : g.coef.Has a b c) :
    ∃ s z x y, scale (fun _ => k) g = some s ∧ (toCartesian g kl).cart.Has z x y ∧
      (toCartesian s kl).cart.Has (fun i => k * z i) (fun i => k * x i) (fun i => k * y i) := by
  obtain ⟨s, hs, hc, _, _, _, _, _, hrad⟩ := scale_right (fun _ => k) g a b c h
  have h1 := toCartesian_spec g kl a b c h
  have h2 := toCartesian_spec s kl _ _ _ hc
  refine ⟨s, fun i => a i * g.radius * Real.sqrt 3 / (1 + kl), fun i => b i * g.radius * Real.sqrt 3 / (1 + kl),
    fun i => c i * g.radius * Real.sqrt 3 / (1 + kl), hs, ?_, ?_⟩
  · have e : g.coef = ⟨some a, some b, some c⟩ := h
    unfold toCartesian tryBlock
    simp only [e]
    exact rfl
  · have e : s.coef = ⟨_, _, _⟩ := hc
    unfold toCartesian tryBlock
    simp only [e, hrad, ← hr]
    show (⟨_, _, _⟩ : Triple n) = ⟨_, _, _⟩
    congr 2 <;> (funext i; ring)

/-- **C112** Deviation: for an object with its own radius the coordinates after `scale` are those of the default
radius; scaling by one changes them. -/
theorem scale_radius (kl : ℝ) (hk : kl ≠ -1) (g : Geo n) (a b c : Ser n) (h : g.coef.Has a b c)
    (hr : g.radius ≠ defaultRadius) (i : Fin n) (ha : a i ≠ 0) :
    ∃ s z z', scale (fun _ => 1) g = some s ∧ (toCartesian g kl).cart.z = some z ∧
      (toCartesian s kl).cart.z = some z' ∧ z i ≠ z' i := by
  obtain ⟨s, hs, hc, _, _, _, _, _, hrad⟩ := scale_right (fun _ => 1) g a b c h
  have e : g.coef = ⟨_, _, _⟩ := h
  have f : s.coef = ⟨_, _, _⟩ := hc
  refine ⟨s, fun i => a i * g.radius * Real.sqrt 3 / (1 + kl),
    fun i => (1 * a i) * s.radius * Real.sqrt 3 / (1 + kl), hs, ?_, ?_, ?_⟩
  · unfold toCartesian tryBlock
    simp only [e]
  · unfold toCartesian tryBlock
    simp only [f]
  · have hk' : 1 + kl ≠ 0 := fun h => hk (by linarith)
    intro hh
    simp only [hrad, one_mul] at hh
    rw [div_left_inj' hk', mul_left_inj' sqrt3_ne, mul_right_inj' ha] at hh
    exact hr hh

/-- **C112** `power`: the coefficients raised date by date; the first power keeps them, the second is the product
with itself. -/
theorem power_right (k : ℕ) (g : Geo n) (a b c : Ser n) (h : g.coef.Has a b c) :
    ∃ s, power k g = some s ∧ s.coef.Has (fun i => a i ^ k) (fun i => b i ^ k) (fun i => c i ^ k) ∧
      s.time = g.time ∧ s.month = g.month ∧ s.err = noTriple n := by
  have e : g.coef = ⟨some a, some b, some c⟩ := h
  unfold power
  rw [e]
  exact ⟨_, rfl, rfl, rfl, rfl, rfl⟩

theorem power_power (j k : ℕ) (g : Geo n) : (power j g).bind (power k) = power (j * k) g := by
  unfold power
  rcases hg : g.coef with ⟨_ | a, _ | b, _ | c⟩ <;> simp [pow_mul]

/-- a missing coefficient: `scale` and `power` raise TypeError -/
theorem scale_missing (v : Ser n) (k : ℕ) (g : Geo n)
    (h : g.coef.z = none ∨ g.coef.x = none ∨ g.coef.y = none) : scale v g = none ∧ power k g = none := by
  unfold scale power
  rcases hg : g.coef with ⟨_ | a, _ | b, _ | c⟩ <;> simp_all

end Verif.Geocenter
