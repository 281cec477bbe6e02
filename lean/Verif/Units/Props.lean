import Verif.Units.Model
import Mathlib.Tactic.FieldSimp
import Mathlib.Tactic.Positivity
import Mathlib.Tactic.NormNum

/-!
# Property C40: unit conversion factors
-/
namespace Verif.Units

/-- a physically meaningful Earth: positive constants, flattening below one -/
structure Earth.Ok (E : Earth) : Prop where
  G : 0 < E.G
  GM : 0 < E.GM
  a : 0 < E.a_axis
  flat : E.flat < 1

/-- the default constants qualify (the hypotheses of the theorems below are met) -/
theorem default_ok : Earth.default.Ok := by
  constructor <;> simp only [Earth.default] <;> norm_num

variable {E : Earth}

theorem rad_pos (h : E.Ok) : 0 < rad_e E :=
  mul_pos h.a (Real.rpow_pos_of_pos (by linarith [h.flat]) _)

theorem rho_pos (h : E.Ok) : 0 < rho_e E := by
  have := rad_pos h; have := h.G; have := h.GM; have := Real.pi_pos
  unfold rho_e; positivity

/-- C40: the mean radius is that of the sphere with the volume of the ellipsoid, `R^3 = a^2 b` -/
theorem rad_volume (h : E.Ok) : rad_e E ^ 3 = E.a_axis ^ 2 * b_axis E := by
  have h0 : 0 ≤ 1 - E.flat := by linarith [h.flat]
  unfold rad_e b_axis
  rw [mul_pow, ← Real.rpow_natCast ((1 - E.flat) ^ ((1 : ℝ) / 3)) 3, ← Real.rpow_mul h0]
  norm_num
  ring

/-- C40: the mass of the Earth is `GM/G` -/
theorem mass_eq (h : E.Ok) : mass E = E.GM / E.G := by
  have h1 := (rad_pos h).ne'; have h2 := h.G.ne'; have h3 := Real.pi_pos.ne'
  unfold mass rho_e
  field_simp
  norm_num

/-- C40: the mass is also `4/3 pi rho a^2 b`, density times the volume of the ellipsoid -/
theorem mass_ellipsoid (h : E.Ok) :
    mass E = 4 / 3 * Real.pi * rho_e E * (E.a_axis ^ 2 * b_axis E) := by
  rw [← rad_volume h]; rfl

/-- Specification: `f` is `c` times `g` at every degree -/
def Ratio (f g : Option (ℕ → ℝ)) (c : ℝ) : Prop :=
  ∃ a b, f = some a ∧ g = some b ∧ ∀ l, a l = c * b l

/-- C40: after `harmonic`, whatever the Love numbers and flags and the earlier state, the factors for
the same quantity in different units differ by the unit ratio at every degree -/
theorem harmonic_ratios (E : Earth) (el ep : Bool) (hl kl ll : ℕ → ℝ) (s : Factors) :
    Ratio (harmonic E el ep hl kl ll s).mmwe (harmonic E el ep hl kl ll s).cmwe 10 ∧
    Ratio (harmonic E el ep hl kl ll s).Pa (harmonic E el ep hl kl ll s).mbar 100 ∧
    Ratio (harmonic E el ep hl kl ll s).cmVCU (harmonic E el ep hl kl ll s).mVCU 100 ∧
    Ratio (harmonic E el ep hl kl ll s).mbar (harmonic E el ep hl kl ll s).cmwe (E.g_wmo / 1000) := by
  refine ⟨⟨_, _, rfl, rfl, ?_⟩, ⟨_, _, rfl, rfl, ?_⟩, ⟨_, _, rfl, rfl, ?_⟩, ⟨_, _, rfl, rfl, ?_⟩⟩ <;>
    intro l <;> ring

/-- C40: uplift and horizontal factors are the geoid factor times the Love number ratio -/
theorem harmonic_love (E : Earth) (el ep : Bool) (hl kl ll : ℕ → ℝ) (s : Factors) :
    ∃ gh cu ch, (harmonic E el ep hl kl ll s).mmGH = some gh ∧ (harmonic E el ep hl kl ll s).mmCU = some cu ∧
      (harmonic E el ep hl kl ll s).mmCH = some ch ∧ ∀ l,
      cu l = gh l * (hl l / fraction E el ep kl l) ∧ ch l = gh l * (ll l / fraction E el ep kl l) := by
  refine ⟨_, _, _, rfl, rfl, rfl, fun l => ⟨?_, ?_⟩⟩ <;> ring

/-- C40: the elastic factor `1 + k_l`, or one when switched off -/
theorem fraction_eq (E : Earth) (kl : ℕ → ℝ) (l : ℕ) :
    fraction E true false kl l = 1 + kl l ∧ fraction E false false kl l = 1 ∧
    fraction E true true kl l = (1 + kl l) / (1 - E.flat) := by
  simp [fraction]

/-- C40: `spatial` factors: ratio of mm to cm -/
theorem spatial_ratio (E : Earth) (el : Bool) (kl : ℕ → ℝ) (s : Factors) :
    Ratio (spatial E el kl s).mmwe (spatial E el kl s).cmwe (1 / 10) := by
  refine ⟨_, _, rfl, rfl, ?_⟩
  intro l
  rw [show (40 : ℝ) * Real.pi * rad_e E * rho_e E = 10 * (4 * Real.pi * rad_e E * rho_e E) by ring]
  rw [← div_div _ (10 : ℝ)]
  ring

/-- Specification: the products of two factors equal `c` at every degree satisfying `P` -/
def Product (f g : Option (ℕ → ℝ)) (c : ℝ) (P : ℕ → Prop) : Prop :=
  ∃ a b, f = some a ∧ g = some b ∧ ∀ l, P l → a l * b l = c

/-- C40: harmonic and spatial factors of water equivalent and gravity are reciprocal up to `4 pi`
wherever the elastic factor is not zero; for geoid height a factor of ten is left over -/
theorem harmonic_spatial (h : E.Ok) (el : Bool) (hl kl ll : ℕ → ℝ) (s s' : Factors) :
    Product (harmonic E el false hl kl ll s).cmwe (spatial E el kl s').cmwe (1 / (4 * Real.pi))
      (fun l => fraction E el false kl l ≠ 0) ∧
    Product (harmonic E el false hl kl ll s).mmwe (spatial E el kl s').mmwe (1 / (4 * Real.pi))
      (fun l => fraction E el false kl l ≠ 0) ∧
    Product (harmonic E el false hl kl ll s).microGal (spatial E el kl s').microGal (1 / (4 * Real.pi))
      (fun _ => True) ∧
    Product (harmonic E el false hl kl ll s).mmGH (spatial E el kl s').mmGH (10 / (4 * Real.pi))
      (fun _ => True) := by
  have h1 := (rad_pos h).ne'; have h2 := (rho_pos h).ne'; have h3 := Real.pi_pos.ne'
  have h4 := h.GM.ne'
  refine ⟨⟨_, _, rfl, rfl, ?_⟩, ⟨_, _, rfl, rfl, ?_⟩, ⟨_, _, rfl, rfl, ?_⟩, ⟨_, _, rfl, rfl, ?_⟩⟩
  · intro l hf
    have : (2 * (l : ℝ) + 1) ≠ 0 := by positivity
    have : (1 + 2 * (l : ℝ)) ≠ 0 := by positivity
    field_simp
    ring
  · intro l hf
    have : (2 * (l : ℝ) + 1) ≠ 0 := by positivity
    have : (1 + 2 * (l : ℝ)) ≠ 0 := by positivity
    field_simp
    ring
  · intro l _
    have : ((l : ℝ) + 1) ≠ 0 := by positivity
    field_simp
  · intro l _
    field_simp

/-- C40: with the oblateness flag the product carries the factor `1 - flat` -/
theorem harmonic_spatial_ellipsoidal (h : E.Ok) (el : Bool) (hl kl ll : ℕ → ℝ) (s s' : Factors) :
    Product (harmonic E el true hl kl ll s).cmwe (spatial E el kl s').cmwe ((1 - E.flat) / (4 * Real.pi))
      (fun l => fraction E el false kl l ≠ 0) := by
  have h1 := (rad_pos h).ne'; have h2 := (rho_pos h).ne'; have h3 := Real.pi_pos.ne'
  refine ⟨_, _, rfl, rfl, ?_⟩
  intro l hf
  have h5 : (1 - E.flat) ≠ 0 := by linarith [h.flat]
  have : (2 * (l : ℝ) + 1) ≠ 0 := by positivity
  have : (1 + 2 * (l : ℝ)) ≠ 0 := by positivity
  have hfr : fraction E el true kl l = fraction E el false kl l / (1 - E.flat) := by
    simp [fraction]
  rw [hfr]
  field_simp
  ring

/-- the hypothesis on the elastic factor is met by every Love number above -1, so by all elastic load
Love numbers except degree one in the frame of the centre of mass -/
example (kl : ℕ → ℝ) (l : ℕ) (h : -1 < kl l) : fraction Earth.default true false kl l ≠ 0 := by
  rw [(fraction_eq Earth.default kl l).1]; linarith

/-- C40: `microGal` is the radial gravity factor `GM/R^2 (l+1)`, the same as `G M / R^2` with the mass
of the object -/
theorem microGal_mass (h : E.Ok) (el ep : Bool) (hl kl ll : ℕ → ℝ) (s : Factors) :
    ∃ f, (harmonic E el ep hl kl ll s).microGal = some f ∧
      ∀ l : ℕ, f l = 10 ^ 6 * (E.G * mass E / rad_e E ^ 2) * (l + 1) := by
  refine ⟨_, rfl, fun l => ?_⟩
  have h1 := (rad_pos h).ne'; have h2 := h.G.ne'
  rw [mass_eq h]
  field_simp
  norm_num
  ring

/-- C40: water equivalent factor against the mass: a degree-zero coefficient `c` in
normalised units is the uniform layer whose total mass is `c` times the mass of the Earth -/
theorem cmwe_degree_zero (E : Earth) (hl kl ll : ℕ → ℝ) (s : Factors) (h0 : kl 0 = 0) :
    ∃ f, (harmonic E true false hl kl ll s).cmwe = some f ∧
      f 0 * (4 * Real.pi * rad_e E ^ 2) = mass E := by
  refine ⟨_, rfl, ?_⟩
  rw [(fraction_eq E kl 0).1, h0]
  unfold mass
  push_cast
  ring

/-- C40: `harmonic` overwrites everything: the result does not depend on what was computed before -/
theorem harmonic_fresh (E : Earth) (el ep : Bool) (hl kl ll : ℕ → ℝ) (s s' : Factors) :
    harmonic E el ep hl kl ll s = harmonic E el ep hl kl ll s' := rfl

/-- C40: `spatial` after `harmonic` on the same object keeps the harmonic factors of the units it does
not define -/
theorem spatial_stale (E : Earth) (el el' ep : Bool) (hl kl ll : ℕ → ℝ) (s : Factors) :
    (spatial E el' kl (harmonic E el ep hl kl ll s)).mmCU = (harmonic E el ep hl kl ll s).mmCU ∧
    (spatial E el' kl (harmonic E el ep hl kl ll s)).mbar = (harmonic E el ep hl kl ll s).mbar ∧
    (spatial E el' kl {}).mmCU = none ∧ (spatial E el' kl {}).mbar = none :=
  ⟨rfl, rfl, rfl, rfl⟩

/-- C40: `bycode` accepts exactly the codes -7..6; the documented codes 0..6 give their units, and a
negative code counts from the end of the table -/
theorem bycode_spec (c : ℤ) :
    ((∃ n, bycode c = some n) ↔ -7 ≤ c ∧ c ≤ 6) ∧ (-7 ≤ c → c < 0 → bycode c = bycode (c + 7)) := by
  constructor
  · constructor
    · rintro ⟨n, hn⟩
      unfold bycode pyIndex at hn
      by_cases h0 : 0 ≤ c
      · rw [if_pos h0] at hn
        have := (List.getElem?_eq_some_iff.1 hn).1
        simp [namedUnits] at this
        omega
      · rw [if_neg h0] at hn
        by_cases h1 : -(namedUnits.length : ℤ) ≤ c
        · simp [namedUnits] at h1; omega
        · rw [if_neg h1] at hn; cases hn
    · rintro ⟨h1, h2⟩
      have : c = -7 ∨ c = -6 ∨ c = -5 ∨ c = -4 ∨ c = -3 ∨ c = -2 ∨ c = -1 ∨ c = 0 ∨ c = 1 ∨ c = 2 ∨ c = 3 ∨
        c = 4 ∨ c = 5 ∨ c = 6 := by omega
      rcases this with h | h | h | h | h | h | h | h | h | h | h | h | h | h <;> subst h <;> exact ⟨_, rfl⟩
  · intro h1 h2
    have : c = -7 ∨ c = -6 ∨ c = -5 ∨ c = -4 ∨ c = -3 ∨ c = -2 ∨ c = -1 := by omega
    rcases this with h | h | h | h | h | h | h <;> subst h <;> rfl

/-- C40: the documented codes -/
theorem bycode_table : bycode 0 = some "norm" ∧ bycode 1 = some "cmwe" ∧ bycode 2 = some "mmGH" ∧
    bycode 3 = some "mmCU" ∧ bycode 4 = some "microGal" ∧ bycode 5 = some "mbar" ∧ bycode 6 = some "cmVCU" :=
  ⟨rfl, rfl, rfl, rfl, rfl, rfl, rfl⟩

/-- C40: every unit reachable by code has factors after `harmonic` and has attributes -/
theorem bycode_get (E : Earth) (el ep : Bool) (hl kl ll : ℕ → ℝ) (s : Factors) (c : ℤ) (n : String)
    (h : bycode c = some n) :
    (∃ f, get (harmonic E el ep hl kl ll s) n = some (.arr f)) ∧ ∃ a, getAttributes n = some a := by
  have hr := (bycode_spec c).1.1 ⟨n, h⟩
  have hn : n ∈ namedUnits := by
    unfold bycode pyIndex at h
    by_cases h0 : 0 ≤ c
    · rw [if_pos h0] at h; exact List.mem_of_getElem? h
    · rw [if_neg h0] at h
      by_cases h1 : -(namedUnits.length : ℤ) ≤ c
      · rw [if_pos h1] at h; exact List.mem_of_getElem? h
      · rw [if_neg h1] at h; cases h
  simp only [namedUnits, List.mem_cons, List.not_mem_nil, or_false] at hn
  rcases hn with h | h | h | h | h | h | h <;> subst h <;> exact ⟨⟨_, rfl⟩, ⟨_, rfl⟩⟩

/-- C40: after `harmonic` each unit name gives the factors of that unit, not of another -/
theorem get_by_name (s : Factors) :
    let w : Option (ℕ → ℝ) → Option Got := fun o => some (match o with | some f => .arr f | none => .none)
    get s "norm" = w s.norm ∧ get s "cmwe" = w s.cmwe ∧ get s "mmwe" = w s.mmwe ∧ get s "mmGH" = w s.mmGH ∧
    get s "mmCU" = w s.mmCU ∧ get s "mmCH" = w s.mmCH ∧ get s "cmVCU" = w s.cmVCU ∧ get s "mVCU" = w s.mVCU ∧
    get s "microGal" = w s.microGal ∧ get s "mbar" = w s.mbar ∧ get s "Pa" = w s.Pa :=
  ⟨rfl, rfl, rfl, rfl, rfl, rfl, rfl, rfl, rfl, rfl, rfl⟩

/-- C40: the unit written to files for each name -/
theorem attributes_units :
    ["norm", "cmwe", "mmwe", "mmGH", "mmCU", "mmCH", "microGal", "mbar", "cmVCU", "mVCU"].map
      (fun v => (getAttributes v).map Prod.fst) =
    ["1", "cm", "mm", "mm", "mm", "mm", "μGal", "mbar", "cm", "meters"].map some := by decide

/-- C40: `get` raises exactly for names that are not attributes; before any computation it returns
`None` for a unit instead of raising, and `Pa` has factors but no attributes -/
theorem get_spec (s : Factors) (v : String) :
    get s v = none ↔ v ∉ ["norm", "cmwe", "mmwe", "mmGH", "mmCU", "mmCH", "cmVCU", "mVCU", "microGal",
      "mbar", "Pa"] ++ otherAttrs := by
  unfold get
  split
  case h_12 _ h1 h2 h3 h4 h5 h6 h7 h8 h9 h10 h11 =>
    show (if v ∈ otherAttrs then some Got.other else none) = none ↔ _
    by_cases hv : v ∈ otherAttrs
    · rw [if_pos hv]; simp [hv]
    · rw [if_neg hv]; simp [hv]; exact ⟨h1, h2, h3, h4, h5, h6, h7, h8, h9, h10, h11⟩
  all_goals simp

theorem get_uncomputed : get {} "cmwe" = some .none := rfl

theorem pa_no_attributes (E : Earth) (el ep : Bool) (hl kl ll : ℕ → ℝ) (s : Factors) :
    (∃ f, get (harmonic E el ep hl kl ll s) "Pa" = some (.arr f)) ∧ getAttributes "Pa" = none :=
  ⟨⟨_, rfl⟩, by decide⟩

end Verif.Units
