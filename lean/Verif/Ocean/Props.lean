import Verif.Ocean.Model
import Verif.Analysis.Grid

/-!
# Property C55: land and ocean functions
-/
namespace Verif.Ocean
open Verif.Units Verif.Analysis

/-! ## Specification -/

/-- a mask of land (1) and water (0) -/
def Binary (mask : ℕ → ℕ → ℝ) : Prop := ∀ i j, mask i j = 0 ∨ mask i j = 1

/-- the four neighbours of a cell: west and east around the globe, north and south, and at the first and
the last row the cell of the adjacent row on both sides -/
def neighbours (nth nphi i j : ℕ) : List (ℕ × ℕ) :=
  [(i, if j = 0 then nphi - 1 else j - 1), (i, if j = nphi - 1 then 0 else j + 1),
   (if i = 0 then 1 else i - 1, j), (if i = nth - 1 then nth - 2 else i + 1, j)]

/-- number of neighbours that are land -/
noncomputable def landNeighbours (mask : ℕ → ℕ → ℝ) (nth nphi i j : ℕ) : ℝ :=
  ((neighbours nth nphi i j).map fun c => mask c.1 c.2).sum

/-- a land cell with at most one neighbour on land -/
def Isolated (mask : ℕ → ℕ → ℝ) (nth nphi i j : ℕ) : Prop :=
  mask i j = 1 ∧ landNeighbours mask nth nphi i j ≤ 1

/-! ## Theorems -/

theorem landFunction_binary (codes : ℕ → ℕ → ℝ) : Binary (landFunction codes) := by
  intro i j; unfold landFunction; split_ifs <;> simp

/-- C55: land, lakes and small islands (codes 1, 2, 3) are land; ocean (0) and ice shelves (4) are
not -/
theorem landFunction_codes (codes : ℕ → ℕ → ℝ) (i j : ℕ) :
    ((codes i j = 1 ∨ codes i j = 2 ∨ codes i j = 3) → landFunction codes i j = 1) ∧
    ((codes i j = 0 ∨ codes i j = 4) → landFunction codes i j = 0) := by
  unfold landFunction
  constructor
  · rintro (h | h | h) <;> rw [h] <;> norm_num
  · rintro (h | h) <;> rw [h] <;> norm_num

theorem laplacian_eq (nth nphi : ℕ) (h2 : 2 ≤ nth) (mask : ℕ → ℕ → ℝ) (i j : ℕ) (hi : i < nth) (hj : j < nphi) :
    laplacian nth nphi mask i j = mask i j * (landNeighbours mask nth nphi i j - 4) := by
  have e1 : (j + (nphi - 1)) % nphi = if j = 0 then nphi - 1 else j - 1 := by
    split_ifs with h
    · subst h; rw [Nat.zero_add]; exact Nat.mod_eq_of_lt (by omega)
    · rw [show j + (nphi - 1) = (j - 1) + nphi by omega, Nat.add_mod_right]; exact Nat.mod_eq_of_lt (by omega)
  have e2 : (j + 1) % nphi = if j = nphi - 1 then 0 else j + 1 := by
    split_ifs with h
    · rw [h, show nphi - 1 + 1 = nphi by omega, Nat.mod_self]
    · exact Nat.mod_eq_of_lt (by omega)
  have e3 : upRow nth mask i j = mask (if i = 0 then 1 else i - 1) j := by
    unfold upRow
    split_ifs with h
    · rfl
    · rw [show i + (nth - 1) = (i - 1) + nth by omega, Nat.add_mod_right, Nat.mod_eq_of_lt (by omega)]
  have e4 : downRow nth mask i j = mask (if i = nth - 1 then nth - 2 else i + 1) j := by
    unfold downRow
    split_ifs with h
    · rfl
    · rw [Nat.mod_eq_of_lt (by omega)]
  unfold laplacian rollCols
  rw [e3, e4]
  simp only [Bool.false_eq_true, if_false, if_true, e1, e2]
  unfold landNeighbours neighbours
  simp only [List.map_cons, List.map_nil, List.sum_cons, List.sum_nil]
  ring

theorem landNeighbours_bounds (mask : ℕ → ℕ → ℝ) (hb : Binary mask) (nth nphi i j : ℕ) :
    0 ≤ landNeighbours mask nth nphi i j ∧ landNeighbours mask nth nphi i j ≤ 4 := by
  have h : ∀ a b, 0 ≤ mask a b ∧ mask a b ≤ 1 := by
    intro a b; rcases hb a b with h | h <;> rw [h] <;> norm_num
  unfold landNeighbours neighbours
  simp only [List.map_cons, List.map_nil, List.sum_cons, List.sum_nil]
  constructor
  · have := fun a b => (h a b).1
    have h1 := this i (if j = 0 then nphi - 1 else j - 1)
    have h2 := this i (if j = nphi - 1 then 0 else j + 1)
    have h3 := this (if i = 0 then 1 else i - 1) j
    have h4 := this (if i = nth - 1 then nth - 2 else i + 1) j
    linarith
  · have := fun a b => (h a b).2
    have h1 := this i (if j = 0 then nphi - 1 else j - 1)
    have h2 := this i (if j = nphi - 1 then 0 else j + 1)
    have h3 := this (if i = 0 then 1 else i - 1) j
    have h4 := this (if i = nth - 1 then nth - 2 else i + 1) j
    linarith

/-- C55: `find_isolated_points` marks with 1 exactly the land cells with at most one neighbour on land,
everything else with 0 -/
theorem findIsolated_correct (nth nphi : ℕ) (h2 : 2 ≤ nth) (mask : ℕ → ℕ → ℝ) (hb : Binary mask) :
    ∃ iso, findIsolated nth nphi mask = some iso ∧ ∀ i j, i < nth → j < nphi →
      (Isolated mask nth nphi i j → iso i j = 1) ∧ (¬ Isolated mask nth nphi i j → iso i j = 0) := by
  refine ⟨_, by unfold findIsolated; rw [if_neg (by omega)], ?_⟩
  intro i j hi hj
  obtain ⟨b0, b4⟩ := landNeighbours_bounds mask hb nth nphi i j
  have key : 3 ≤ |laplacian nth nphi mask i j| ↔ Isolated mask nth nphi i j := by
    rw [laplacian_eq nth nphi h2 mask i j hi hj]
    unfold Isolated
    rcases hb i j with h | h <;> rw [h]
    · norm_num
    · rw [one_mul, abs_of_nonpos (by linarith)]
      constructor
      · intro h'; exact ⟨rfl, by linarith⟩
      · rintro ⟨-, h'⟩; linarith
  constructor
  · intro h; exact if_pos (key.2 h)
  · intro h; exact if_neg (fun h' => h (key.1 h'))

/-- C55: a single row of latitudes cannot be simplified -/
theorem findIsolated_one_row (nphi : ℕ) (mask : ℕ → ℕ → ℝ) : findIsolated 1 nphi mask = none := by
  unfold findIsolated; rw [if_pos (by omega)]

/-- C55: without simplification the land area is the land function -/
theorem landArea_plain (nth nphi : ℕ) (codes : ℕ → ℕ → ℝ) :
    landArea nth nphi codes false = some (landFunction codes) := rfl

/-- C55: simplification turns the isolated cells into water and changes nothing else -/
theorem landArea_simplified (nth nphi : ℕ) (h2 : 2 ≤ nth) (codes : ℕ → ℕ → ℝ) :
    ∃ land, landArea nth nphi codes true = some land ∧ ∀ i j, i < nth → j < nphi →
      (Isolated (landFunction codes) nth nphi i j → land i j = 0) ∧
      (¬ Isolated (landFunction codes) nth nphi i j → land i j = landFunction codes i j) := by
  obtain ⟨iso, h, hv⟩ := findIsolated_correct nth nphi h2 _ (landFunction_binary codes)
  refine ⟨_, by unfold landArea; rw [if_pos rfl, h, Option.map_some], ?_⟩
  intro i j hi hj
  obtain ⟨a, b⟩ := hv i j hi hj
  constructor
  · intro h'; rw [a h', h'.1]; ring
  · intro h'; rw [b h']; ring

/-- C55: simplified or not, every cell of the grid stays land or water, and no land is added -/
theorem landArea_range (nth nphi : ℕ) (codes : ℕ → ℕ → ℝ) (s : Bool) (land : ℕ → ℕ → ℝ)
    (h : landArea nth nphi codes s = some land) (i j : ℕ) (hi : i < nth) (hj : j < nphi) :
    (land i j = 0 ∨ land i j = 1) ∧ land i j ≤ landFunction codes i j := by
  have hb := landFunction_binary codes i j
  cases s
  · rw [landArea_plain, Option.some.injEq] at h; subst h; exact ⟨hb, le_refl _⟩
  · by_cases h2 : 2 ≤ nth
    · obtain ⟨l2, h', hv⟩ := landArea_simplified nth nphi h2 codes
      rw [h, Option.some.injEq] at h'; subst h'
      obtain ⟨a, b⟩ := hv i j hi hj
      by_cases hc : Isolated (landFunction codes) nth nphi i j
      · rw [a hc]; refine ⟨Or.inl rfl, ?_⟩; rcases hb with h | h <;> rw [h]; norm_num
      · rw [b hc]; exact ⟨hb, le_refl _⟩
    · unfold landArea findIsolated at h; rw [if_pos rfl, if_pos (by omega)] at h; cases h

/-- C55: a coastline or the interior of a land mass is untouched: a land cell with two or more neighbours
on land is kept -/
theorem landArea_keeps (nth nphi : ℕ) (h2 : 2 ≤ nth) (codes : ℕ → ℕ → ℝ) (land : ℕ → ℕ → ℝ)
    (h : landArea nth nphi codes true = some land) (i j : ℕ) (hi : i < nth) (hj : j < nphi)
    (hl : landFunction codes i j = 1) (hn : 2 ≤ landNeighbours (landFunction codes) nth nphi i j) : land i j = 1 := by
  obtain ⟨l2, h', hv⟩ := landArea_simplified nth nphi h2 codes
  rw [h, Option.some.injEq] at h'; subst h'
  rw [(hv i j hi hj).2 (fun hc => by have := hc.2; linarith), hl]

/-- three land cells in a row of an otherwise empty ocean of 3 by 5 cells -/
noncomputable def threeCells (i j : ℕ) : ℝ := if i = 1 ∧ 1 ≤ j ∧ j ≤ 3 then 1 else 0

/-- C55: simplifying is not done once and for all: of three cells in a row the first pass removes the
ends and keeps the middle, which a second pass would remove -/
theorem simplify_not_idempotent : ∃ a b,
    landArea 3 5 threeCells true = some a ∧ a 1 1 = 0 ∧ a 1 2 = 1 ∧ a 1 3 = 0 ∧
    landArea 3 5 a true = some b ∧ b 1 2 = 0 := by
  have hf : ∀ i j, landFunction threeCells i j = threeCells i j := by
    intro i j; unfold landFunction threeCells; split_ifs <;> norm_num at *
  obtain ⟨a, ha, hva⟩ := landArea_simplified 3 5 (by norm_num) threeCells
  obtain ⟨b, hb, hvb⟩ := landArea_simplified 3 5 (by norm_num) a
  have a1 : a 1 1 = 0 := (hva 1 1 (by norm_num) (by norm_num)).1
    (by unfold Isolated landNeighbours neighbours; simp only [hf]; simp [threeCells])
  have a3 : a 1 3 = 0 := (hva 1 3 (by norm_num) (by norm_num)).1
    (by unfold Isolated landNeighbours neighbours; simp only [hf]; simp [threeCells])
  have a2 : a 1 2 = 1 := by
    rw [(hva 1 2 (by norm_num) (by norm_num)).2
      (by unfold Isolated landNeighbours neighbours; simp only [hf]; simp [threeCells]), hf]
    simp [threeCells]
  have a02 : a 0 2 = 0 := by
    rw [(hva 0 2 (by norm_num) (by norm_num)).2
      (by unfold Isolated landNeighbours neighbours; simp only [hf]; simp [threeCells]), hf]
    simp [threeCells]
  have a22 : a 2 2 = 0 := by
    rw [(hva 2 2 (by norm_num) (by norm_num)).2
      (by unfold Isolated landNeighbours neighbours; simp only [hf]; simp [threeCells]), hf]
    simp [threeCells]
  refine ⟨a, b, ha, a1, a2, a3, hb, (hvb 1 2 (by norm_num) (by norm_num)).1 ?_⟩
  unfold Isolated landNeighbours neighbours
  simp [landFunction, a1, a2, a3, a02, a22, not_le.2 (zero_lt_one (α := ℝ))]

/-! ## Harmonics -/

/-- the two routines succeed or fail together -/
theorem land_ocean_both (E : Earth) (eps scalef : ℝ) (nth nphi : ℕ) (lon lat : ℕ → ℝ) (codes : ℕ → ℕ → ℝ)
    (LMAX : ℕ) (MMAX : Option ℕ) (kl : ℕ → ℝ) (s : Bool) (r o : CSlm)
    (hr : landStokes E eps scalef nth nphi lon lat codes LMAX MMAX kl s = some r)
    (ho : oceanStokes E eps scalef nth nphi lon lat codes LMAX MMAX kl s = some o) :
    ∃ t, genStokes E eps scalef ⟨nphi, nth, fun _ _ => 1⟩ nphi nth lon lat 0 LMAX (some (MMAX.getD LMAX)) (.code 1) none kl
        = some t ∧
      ∀ l m, r.clm l m + o.clm l m = t.clm l m ∧ r.slm l m + o.slm l m = t.slm l m := by
  unfold landStokes at hr
  unfold oceanStokes at ho
  cases hl : landArea nth nphi codes s with
  | none => rw [hl] at hr; cases hr
  | some land =>
    rw [hl] at hr ho
    simp only at hr ho
    obtain ⟨t, ht, hv⟩ := genStokes_linear E eps scalef ⟨nphi, nth, fun j i => land i j⟩
      ⟨nphi, nth, fun j i => 1 - land i j⟩ rfl nphi nth lon lat 0 LMAX _ _ none kl 1 1 r o hr ho
    have e : Mat.lin 1 1 ⟨nphi, nth, fun j i => land i j⟩ ⟨nphi, nth, fun j i => 1 - land i j⟩ =
        ⟨nphi, nth, fun _ _ => 1⟩ := by
      unfold Mat.lin; simp only [Mat.mk.injEq, true_and]; funext i j; ring
    rw [e] at ht
    refine ⟨t, ht, fun l m => ?_⟩
    have := hv l m
    constructor
    · linarith [this.1]
    · linarith [this.2]

/-- C55: both routines are the integral over the grid of the (simplified) land or ocean function against the
true associated Legendre functions, when there are not as many longitudes as latitudes -/
theorem land_ocean_correct (E : Earth) (eps scalef : ℝ) (hs : scalef ≠ 0) (nth nphi : ℕ) (h1 : 2 ≤ nphi) (h2 : 2 ≤ nth)
    (hne : nphi ≠ nth) (lon lat : ℕ → ℝ) (hlat : ∀ j < nth, -90 ≤ lat j ∧ lat j ≤ 90) (codes : ℕ → ℕ → ℝ) (LMAX : ℕ)
    (hL : 2 ≤ LMAX) (MMAX : Option ℕ) (hM : MMAX.getD LMAX ≤ LMAX) (kl : ℕ → ℝ) (s : Bool) :
    ∃ df land r o, (spatial E true kl {}).cmwe = some df ∧ landArea nth nphi codes s = some land ∧
      landStokes E eps scalef nth nphi lon lat codes LMAX MMAX kl s = some r ∧
      oceanStokes E eps scalef nth nphi lon lat codes LMAX MMAX kl s = some o ∧
      ∀ l m, l ≤ LMAX → m ≤ l → m ≤ MMAX.getD LMAX →
        r.clm l m = df l * cellSum nphi nth Real.cos (trueP lat l m) (areaWeight lon lat) (phiRad lon)
          (fun j i => land i j) m ∧
        r.slm l m = df l * cellSum nphi nth Real.sin (trueP lat l m) (areaWeight lon lat) (phiRad lon)
          (fun j i => land i j) m ∧
        o.clm l m = df l * cellSum nphi nth Real.cos (trueP lat l m) (areaWeight lon lat) (phiRad lon)
          (fun j i => 1 - land i j) m ∧
        o.slm l m = df l * cellSum nphi nth Real.sin (trueP lat l m) (areaWeight lon lat) (phiRad lon)
          (fun j i => 1 - land i j) m := by
  obtain ⟨land, hland⟩ : ∃ land, landArea nth nphi codes s = some land := by
    cases s
    · exact ⟨_, rfl⟩
    · obtain ⟨x, hx, -⟩ := landArea_simplified nth nphi h2 codes; exact ⟨x, hx⟩
  obtain ⟨df, hdf⟩ : ∃ df, (spatial E true kl {}).cmwe = some df := ⟨_, rfl⟩
  have hw : ∀ j < nth, (-90 < lat j ∧ lat j < 90) ∨ areaWeight lon lat j = 0 := by
    intro j hj
    obtain ⟨a, b⟩ := hlat j hj
    rcases a.lt_or_eq with a | a
    · rcases b.lt_or_eq with b | b
      · exact Or.inl ⟨a, b⟩
      · right; unfold areaWeight colat; rw [b]; simp
    · right; unfold areaWeight colat; rw [← a, show (90 - -90 : ℝ) * Real.pi / 180 = Real.pi by ring]; simp
  have key : ∀ f : ℕ → ℕ → ℝ, ∃ r, toStokes E eps scalef nth nphi lon lat f LMAX MMAX kl = some r ∧
      ∀ l m, l ≤ LMAX → m ≤ l → m ≤ MMAX.getD LMAX →
        r.clm l m = df l * cellSum nphi nth Real.cos (trueP lat l m) (areaWeight lon lat) (phiRad lon) (fun j i => f i j) m ∧
        r.slm l m = df l * cellSum nphi nth Real.sin (trueP lat l m) (areaWeight lon lat) (phiRad lon) (fun j i => f i j) m := by
    intro f
    obtain ⟨g1, g2⟩ := gridOk_lonlat nphi nth (fun j i => f i j) h1 h2 hne
    obtain ⟨r, hr, hv⟩ := genStokes_correct E eps scalef hs _ nphi nth lon lat 0 LMAX hL
      (some (MMAX.getD LMAX)) hM (.code 1) kl df _ g1 (Or.inr (Or.inl ⟨rfl, hdf, rfl⟩)) hw
    refine ⟨r, hr, fun l m a b c => ?_⟩
    have := (hv l m).1 ⟨Nat.zero_le _, a, b, c⟩
    rw [g2] at this
    exact this
  obtain ⟨r, hr, hrv⟩ := key land
  obtain ⟨o, ho, hov⟩ := key fun i j => 1 - land i j
  refine ⟨df, land, r, o, hdf, hland, ?_, ?_, ?_⟩
  · unfold landStokes; rw [hland]; exact hr
  · unfold oceanStokes; rw [hland]; exact ho
  · intro l m a b c
    exact ⟨(hrv l m a b c).1, (hrv l m a b c).2, (hov l m a b c).1, (hov l m a b c).2⟩

/-- C55: with as many longitudes as latitudes the harmonics are those of the transposed field: the value of the
mask at latitude `i` and longitude `j` is used at longitude `i` and latitude `j` -/
theorem square_transposed (E : Earth) (eps scalef : ℝ) (hs : scalef ≠ 0) (n : ℕ) (h2 : 2 ≤ n) (lon lat : ℕ → ℝ)
    (hlat : ∀ j < n, -90 < lat j ∧ lat j < 90) (codes : ℕ → ℕ → ℝ) (LMAX : ℕ) (hL : 2 ≤ LMAX) (kl : ℕ → ℝ) :
    ∃ df r, (spatial E true kl {}).cmwe = some df ∧
      landStokes E eps scalef n n lon lat codes LMAX none kl false = some r ∧ ∀ l m, l ≤ LMAX → m ≤ l →
        r.clm l m = df l * cellSum n n Real.cos (trueP lat l m) (areaWeight lon lat) (phiRad lon)
          (landFunction codes) m := by
  obtain ⟨df, hdf⟩ : ∃ df, (spatial E true kl {}).cmwe = some df := ⟨_, rfl⟩
  obtain ⟨g1, g2⟩ := gridOk_latlon n n (fun j i => landFunction codes i j) h2 h2
  obtain ⟨r, hr, hv⟩ := genStokes_correct E eps scalef hs _ n n lon lat 0 LMAX hL
    (some LMAX) (le_refl _) (.code 1) kl df _ g1 (Or.inr (Or.inl ⟨rfl, hdf, rfl⟩)) (fun j hj => Or.inl (hlat j hj))
  refine ⟨df, r, hdf, hr, fun l m a b => ?_⟩
  have := ((hv l m).1 ⟨Nat.zero_le _, a, b, le_trans b a⟩).1
  rw [g2] at this
  exact this

/-- C55: the mean of the ocean function is a fraction: the coefficient of degree and order 0 of the ocean
function, and that of land, lies between 0 and that of the constant 1 (positive degree factor) -/
theorem ocean_fraction (E : Earth) (eps scalef : ℝ) (hs : scalef ≠ 0) (nth nphi : ℕ) (h1 : 2 ≤ nphi) (h2 : 2 ≤ nth)
    (hne : nphi ≠ nth) (lon lat : ℕ → ℝ) (hlat : ∀ j < nth, -90 ≤ lat j ∧ lat j ≤ 90) (codes : ℕ → ℕ → ℝ) (LMAX : ℕ)
    (hL : 2 ≤ LMAX) (MMAX : Option ℕ) (hM : MMAX.getD LMAX ≤ LMAX) (kl df : ℕ → ℝ)
    (hdf : (spatial E true kl {}).cmwe = some df) (hpos : 0 ≤ df 0) (s : Bool) :
    ∃ r o, landStokes E eps scalef nth nphi lon lat codes LMAX MMAX kl s = some r ∧
      oceanStokes E eps scalef nth nphi lon lat codes LMAX MMAX kl s = some o ∧
      0 ≤ r.clm 0 0 ∧ 0 ≤ o.clm 0 0 ∧
      r.clm 0 0 + o.clm 0 0 = df 0 * (nphi * ∑ j ∈ Finset.range nth, areaWeight lon lat j) := by
  obtain ⟨df', land, r, o, hdf', hland, hr, ho, hv⟩ := land_ocean_correct E eps scalef hs nth nphi h1 h2 hne lon lat
    hlat codes LMAX hL MMAX hM kl s
  rw [hdf, Option.some.injEq] at hdf'; subst hdf'
  obtain ⟨a, -, b, -⟩ := hv 0 0 (by omega) (le_refl _) (by omega)
  have hP : ∀ j, trueP lat 0 0 j = 1 := fun j => by unfold trueP; exact Verif.Legendre.Plm_zero_zero _ _
  have hw : ∀ j < nth, 0 ≤ areaWeight lon lat j := by
    intro j hj
    obtain ⟨x, y⟩ := hlat j hj
    unfold areaWeight stepRad
    have : 0 ≤ Real.sin (colat (lat j)) := by
      apply Real.sin_nonneg_of_nonneg_of_le_pi
      · unfold colat; have := Real.pi_pos; apply div_nonneg (mul_nonneg (by linarith) this.le); norm_num
      · unfold colat; have := Real.pi_pos; rw [div_le_iff₀ (by norm_num)]; nlinarith
    have := Real.pi_pos
    positivity
  refine ⟨r, o, hr, ho, ?_, ?_, ?_⟩
  · rw [a]; unfold cellSum
    refine mul_nonneg hpos (Finset.sum_nonneg fun i hi => Finset.sum_nonneg fun j hj => ?_)
    rw [hP]
    have := (landArea_range nth nphi codes s land hland j i (Finset.mem_range.1 hj) (Finset.mem_range.1 hi)).1
    have w := hw j (Finset.mem_range.1 hj)
    dsimp only; rcases this with h | h <;> rw [h] <;> simp [w]
  · rw [b]; unfold cellSum
    refine mul_nonneg hpos (Finset.sum_nonneg fun i hi => Finset.sum_nonneg fun j hj => ?_)
    rw [hP]
    have := (landArea_range nth nphi codes s land hland j i (Finset.mem_range.1 hj) (Finset.mem_range.1 hi)).1
    have w := hw j (Finset.mem_range.1 hj)
    dsimp only; rcases this with h | h <;> rw [h] <;> simp [w]
  · rw [a, b, ← mul_add]; congr 1
    unfold cellSum
    rw [← Finset.sum_add_distrib]
    simp only [← Finset.sum_add_distrib, hP]
    rw [← nsmul_eq_mul, ← Finset.card_range nphi, ← Finset.sum_const, Finset.card_range]
    apply Finset.sum_congr rfl; intro i _
    apply Finset.sum_congr rfl; intro j _
    simp; ring

/-- the hypotheses are met by the 0.5-degree mask distributed with the toolkit (360 latitudes from -89.75,
720 longitudes) with vanishing Love numbers -/
example : (∀ j < 360, (-90 : ℝ) ≤ ((j : ℕ) : ℝ) / 2 - 89.75 ∧ ((j : ℕ) : ℝ) / 2 - 89.75 ≤ 90) ∧ (720 : ℕ) ≠ 360 ∧
    ∃ df, (spatial Earth.default true (fun _ => 0) {}).cmwe = some df := by
  refine ⟨fun j hj => ?_, by norm_num, _, rfl⟩
  have : (j : ℝ) ≤ 359 := by exact_mod_cast (by omega : j ≤ 359)
  have : (0 : ℝ) ≤ j := Nat.cast_nonneg j
  constructor <;> linarith

end Verif.Ocean
