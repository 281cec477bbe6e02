import Verif.Mascons.Model
import Mathlib.Tactic.FieldSimp
import Mathlib.Tactic.Positivity
import Mathlib.Tactic.Linarith
import Mathlib.Tactic.NormNum
import Mathlib.Tactic.IntervalCases
import Mathlib.Algebra.Order.BigOperators.Ring.Finset

/-!
# Property C42: mascon averages and grids
-/
namespace Verif.Mascons

/-! ## Specification -/

/-- weight of latitude index `i` -/
noncomputable def weight (G : Grid) (i : ℕ) : ℝ := Real.cos (G.lat i * Real.pi / 180)

/-- Specification: cos(latitude)-weighted mean over the cells `I × J` -/
noncomputable def areaMean (G : Grid) (I J : Finset ℕ) (g : ℕ → ℕ → ℝ) : ℝ :=
  (∑ i ∈ I, ∑ j ∈ J, weight G i * g i j) / ∑ i ∈ I, ∑ _j ∈ J, weight G i

/-- all latitudes lie strictly between the poles -/
def NoPole (G : Grid) : Prop := ∀ i < G.nlat, -90 < G.lat i ∧ G.lat i < 90

theorem weight_pos (G : Grid) (h : NoPole G) (i : ℕ) (hi : i < G.nlat) : 0 < weight G i := by
  obtain ⟨h1, h2⟩ := h i hi
  have := Real.pi_pos
  apply Real.cos_pos_of_mem_Ioo
  constructor
  · have : -(Real.pi / 2) = -90 * Real.pi / 180 := by ring
    rw [this]; gcongr
  · have : Real.pi / 2 = 90 * Real.pi / 180 := by ring
    rw [this]; gcongr

theorem within_sub (n : ℕ) (x : ℕ → ℝ) (lo hi : ℝ) (i : ℕ) (h : i ∈ within n x lo hi) : i < n := by
  unfold within at h; rw [Finset.mem_filter, Finset.mem_range] at h; exact h.1

theorem mem_within (n : ℕ) (x : ℕ → ℝ) (lo hi : ℝ) (i : ℕ) :
    i ∈ within n x lo hi ↔ i < n ∧ lo ≤ x i ∧ x i < hi := by
  unfold within; rw [Finset.mem_filter, Finset.mem_range]

/-- the mean of the code is the weighted mean divided by `d` -/
theorem binMean_spec (G : Grid) (h : NoPole G) (I J : Finset ℕ) (hI : ∀ i ∈ I, i < G.nlat) (d : ℝ)
    (g : ℕ → ℕ → ℝ) (h1 : I.Nonempty) (h2 : J.Nonempty) :
    binMean G.lat I J d g = some (areaMean G I J g / d) := by
  have hw : 0 < ∑ i ∈ I, weight G i := Finset.sum_pos (fun i hi => weight_pos G h i (hI i hi)) h1
  have c1 : (0 : ℝ) < I.card := by exact_mod_cast Finset.card_pos.mpr h1
  have c2 : (0 : ℝ) < J.card := by exact_mod_cast Finset.card_pos.mpr h2
  unfold binMean areaMean
  rw [if_neg (by rw [Finset.card_eq_zero, Finset.card_eq_zero]; rintro (e | e)
                 · exact h1.ne_empty e
                 · exact h2.ne_empty e)]
  change some ((∑ j ∈ J, ∑ i ∈ I, weight G i / ((∑ i ∈ I, weight G i) / I.card) * g i j / d) / ((J.card * I.card : ℕ) : ℝ)) = _
  congr 1
  have e1 : ∑ i ∈ I, ∑ _j ∈ J, weight G i = J.card * ∑ i ∈ I, weight G i := by
    simp only [Finset.sum_const, nsmul_eq_mul, Finset.mul_sum]
  have e2 : ∑ j ∈ J, ∑ i ∈ I, weight G i / ((∑ i ∈ I, weight G i) / I.card) * g i j / d =
      (I.card / (∑ i ∈ I, weight G i) / d) * ∑ i ∈ I, ∑ j ∈ J, weight G i * g i j := by
    rw [Finset.sum_comm, Finset.mul_sum]
    apply Finset.sum_congr rfl; intro i _
    rw [Finset.mul_sum]
    apply Finset.sum_congr rfl; intro j _
    rw [div_div_eq_mul_div]; ring
  rw [e1, e2]
  push_cast
  by_cases hd : d = 0
  · subst hd; simp
  · field_simp

theorem areaMean_const (G : Grid) (h : NoPole G) (I J : Finset ℕ) (hI : ∀ i ∈ I, i < G.nlat)
    (h1 : I.Nonempty) (h2 : J.Nonempty) (g : ℕ → ℕ → ℝ) (v : ℝ) (hv : ∀ i ∈ I, ∀ j ∈ J, g i j = v) :
    areaMean G I J g = v := by
  have hw : 0 < ∑ i ∈ I, ∑ _j ∈ J, weight G i :=
    Finset.sum_pos (fun i hi => Finset.sum_pos (fun _ _ => weight_pos G h i (hI i hi)) h2) h1
  unfold areaMean
  rw [div_eq_iff hw.ne', Finset.mul_sum]
  apply Finset.sum_congr rfl; intro i hi
  rw [Finset.mul_sum]
  apply Finset.sum_congr rfl; intro j hj
  rw [hv i hi j hj]; ring

theorem areaMean_bounds (G : Grid) (h : NoPole G) (I J : Finset ℕ) (hI : ∀ i ∈ I, i < G.nlat)
    (h1 : I.Nonempty) (h2 : J.Nonempty) (g : ℕ → ℕ → ℝ) (lo hi : ℝ)
    (hv : ∀ i ∈ I, ∀ j ∈ J, lo ≤ g i j ∧ g i j ≤ hi) : lo ≤ areaMean G I J g ∧ areaMean G I J g ≤ hi := by
  have hw : 0 < ∑ i ∈ I, ∑ _j ∈ J, weight G i :=
    Finset.sum_pos (fun i hi => Finset.sum_pos (fun _ _ => weight_pos G h i (hI i hi)) h2) h1
  unfold areaMean
  rw [le_div_iff₀ hw, div_le_iff₀ hw, Finset.mul_sum, Finset.mul_sum]
  constructor
  · apply Finset.sum_le_sum; intro i hi'
    rw [Finset.mul_sum]
    apply Finset.sum_le_sum; intro j hj
    rw [mul_comm]
    exact mul_le_mul_of_nonneg_left (hv i hi' j hj).1 (weight_pos G h i (hI i hi')).le
  · apply Finset.sum_le_sum; intro i hi'
    rw [Finset.mul_sum]
    apply Finset.sum_le_sum; intro j hj
    rw [mul_comm hi]
    exact mul_le_mul_of_nonneg_left (hv i hi' j hj).2 (weight_pos G h i (hI i hi')).le

/-! ## Which cells belong to a GSFC mascon -/

/-- Specification: longitude `x` lies, up to full turns, in `[lo, hi)` -/
def LonIn (x lo hi : ℝ) : Prop := ∃ n : ℤ, lo ≤ x + 360 * n ∧ x + 360 * n < hi

/-- C42: on a grid with longitudes between -180 and 180 a cell belongs to a mascon exactly when its
latitude lies in the half-open latitude range and its longitude, up to full turns, in the half-open
longitude range about the centre, for every centre given in -180..180 or 0..360 and every span of up to
180 degrees; a polar mascon takes all longitudes and both sides of its span -/
theorem gsfc_cells (G : Grid) (hG : ∀ j < G.nlon, -180 ≤ G.lon j ∧ G.lon j ≤ 180) (k : Gsfc)
    (hc : -180 ≤ k.lonC ∧ k.lonC ≤ 360) (hs : 0 < k.lonS ∧ k.lonS ≤ 180) (i j : ℕ) (hi : i < G.nlat) (hj : j < G.nlon) :
    (i ∈ (gsfcCells G k).1 ∧ j ∈ (gsfcCells G k).2) ↔
      if k.latC = 90 ∨ k.latC = -90 then k.latC - k.latS ≤ G.lat i ∧ G.lat i < k.latC + k.latS
      else (k.latC - k.latS / 2 ≤ G.lat i ∧ G.lat i < k.latC + k.latS / 2) ∧
        LonIn (G.lon j) (k.lonC - k.lonS / 2) (k.lonC + k.lonS / 2) := by
  obtain ⟨g1, g2⟩ := hG j hj
  by_cases hp : k.latC = 90 ∨ k.latC = -90
  · rw [if_pos hp]
    have hb : bounds k = ((k.latC + -1 * k.latS, k.latC + 1 * k.latS), (0, 360)) := by
      unfold bounds; rw [if_pos hp]
    unfold gsfcCells
    rw [hb]
    dsimp only
    rw [if_pos (by norm_num)]
    dsimp only
    rw [mem_within, mem_within]
    have : 0 ≤ alon G.lon j ∧ alon G.lon j < 360 := by
      unfold alon; split_ifs <;> constructor <;> linarith
    constructor
    · rintro ⟨⟨_, a, b⟩, _⟩; constructor <;> linarith
    · rintro ⟨a, b⟩; exact ⟨⟨hi, by linarith, by linarith⟩, hj, this⟩
  · rw [if_neg hp]
    set c := wrapCenter k.lonC with hcdef
    obtain ⟨nc, hnc⟩ : ∃ n : ℤ, c = k.lonC + 360 * n := by
      rw [hcdef]; unfold wrapCenter
      split_ifs
      · exact ⟨-1, by push_cast; ring⟩
      · exact ⟨0, by push_cast; ring⟩
    have hcr : -180 ≤ c ∧ c ≤ 180 := by
      rw [hcdef]; unfold wrapCenter
      split_ifs <;> constructor <;> linarith [hc.1, hc.2]
    have hb : bounds k = ((k.latC + -0.5 * k.latS, k.latC + 0.5 * k.latS), (c + -0.5 * k.lonS, c + 0.5 * k.lonS)) := by
      unfold bounds; rw [if_neg hp]
    -- the longitude range about the wrapped centre
    have hshift : LonIn (G.lon j) (k.lonC - k.lonS / 2) (k.lonC + k.lonS / 2) ↔
        LonIn (G.lon j) (c - k.lonS / 2) (c + k.lonS / 2) := by
      constructor
      · rintro ⟨n, a, b⟩; exact ⟨n + nc, by push_cast; rw [hnc]; linarith, by push_cast; rw [hnc]; linarith⟩
      · rintro ⟨n, a, b⟩; exact ⟨n - nc, by push_cast; linarith, by push_cast; linarith⟩
    rw [hshift]
    have hlat : i ∈ within G.nlat G.lat (k.latC + -0.5 * k.latS) (k.latC + 0.5 * k.latS) ↔
        (k.latC - k.latS / 2 ≤ G.lat i ∧ G.lat i < k.latC + k.latS / 2) := by
      rw [mem_within]
      constructor
      · rintro ⟨_, a, b⟩; constructor <;> linarith
      · rintro ⟨a, b⟩; exact ⟨hi, by linarith, by linarith⟩
    -- integers trapped by the ranges
    have key : ∀ (y lo hi' : ℝ), lo + 360 ≥ hi' → (∃ q : ℤ, y = G.lon j + 360 * q) →
        (∀ n : ℤ, lo ≤ y + 360 * n → y + 360 * n < hi' → n = 0) →
        ((lo ≤ y ∧ y < hi') ↔ LonIn (G.lon j) lo hi') := by
      rintro y lo hi' _ ⟨q, hq⟩ hz
      constructor
      · rintro ⟨a, b⟩; exact ⟨q, by rw [← hq]; exact a, by rw [← hq]; exact b⟩
      · rintro ⟨n, a, b⟩
        have e : G.lon j + 360 * n = y + 360 * ((n - q : ℤ) : ℝ) := by rw [hq]; push_cast; ring
        rw [e] at a b
        have := hz (n - q) a b
        rw [this] at a b
        simp only [Int.cast_zero, mul_zero, add_zero] at a b
        exact ⟨a, b⟩
    have hal : ∃ q : ℤ, alon G.lon j = G.lon j + 360 * q := by
      unfold alon
      split_ifs
      · exact ⟨1, by push_cast; ring⟩
      · exact ⟨0, by push_cast; ring⟩
    have har : 0 ≤ alon G.lon j ∧ alon G.lon j < 360 := by
      unfold alon; split_ifs <;> constructor <;> linarith
    have trap : ∀ (y lo hi' b1 b2 : ℝ), b1 ≤ y → y < b2 → b2 - b1 ≤ 360 → b1 ≤ lo → hi' ≤ b2 → ∀ n : ℤ,
        lo ≤ y + 360 * n → y + 360 * n < hi' → n = 0 := by
      intro y lo hi' b1 b2 a1 a2 a3 a4 a5 n n1 n2
      have u1 : (n : ℝ) < 1 := by linarith
      have u2 : (-1 : ℝ) < n := by linarith
      have u3 : n < 1 := by exact_mod_cast u1
      have u4 : -1 < n := by exact_mod_cast u2
      omega
    unfold gsfcCells
    rw [hb]
    dsimp only
    by_cases hA : c + -0.5 * k.lonS ≤ 180 ∧ 180 ≤ c + 0.5 * k.lonS
    · rw [if_pos hA]
      dsimp only
      rw [hlat, mem_within]
      apply and_congr_right; intro _
      have := key (alon G.lon j) (c - k.lonS / 2) (c + k.lonS / 2) (by linarith) hal
        (trap _ _ _ 0 360 har.1 har.2 (by norm_num) (by linarith [hA.2]) (by linarith [hA.2]))
      rw [← this]
      constructor
      · rintro ⟨_, a, b⟩; constructor <;> linarith
      · rintro ⟨a, b⟩; exact ⟨hj, by linarith, by linarith⟩
    · rw [if_neg hA]
      by_cases hB : c + -0.5 * k.lonS ≤ -180 ∧ -180 ≤ c + 0.5 * k.lonS
      · rw [if_pos hB]
        dsimp only
        rw [hlat, mem_within]
        apply and_congr_right; intro _
        have hs' : LonIn (G.lon j) (c - k.lonS / 2) (c + k.lonS / 2) ↔
            LonIn (G.lon j) (c - k.lonS / 2 + 360) (c + k.lonS / 2 + 360) := by
          constructor
          · rintro ⟨n, a, b⟩; exact ⟨n + 1, by push_cast; linarith, by push_cast; linarith⟩
          · rintro ⟨n, a, b⟩; exact ⟨n - 1, by push_cast; linarith, by push_cast; linarith⟩
        rw [hs']
        have := key (alon G.lon j) (c - k.lonS / 2 + 360) (c + k.lonS / 2 + 360) (by linarith) hal
          (trap _ _ _ 0 360 har.1 har.2 (by norm_num) (by linarith [hB.1]) (by linarith [hB.1]))
        rw [← this]
        constructor
        · rintro ⟨_, a, b⟩; constructor <;> linarith
        · rintro ⟨a, b⟩; exact ⟨hj, by linarith, by linarith⟩
      · rw [if_neg hB]
        dsimp only
        rw [hlat, mem_within]
        apply and_congr_right; intro _
        have b1 : c + 0.5 * k.lonS < 180 := by
          by_contra h; exact hA ⟨by linarith [hcr.2], by linarith⟩
        have b2 : -180 < c + -0.5 * k.lonS := by
          by_contra h; exact hB ⟨by linarith, by linarith [hcr.1]⟩
        have := key (G.lon j) (c - k.lonS / 2) (c + k.lonS / 2) (by linarith) ⟨0, by push_cast; ring⟩ (by
          intro n n1 n2
          have u1 : (n : ℝ) < 1 := by linarith
          have u2 : (-1 : ℝ) < n := by linarith
          have u3 : n < 1 := by exact_mod_cast u1
          have u4 : -1 < n := by exact_mod_cast u2
          omega)
        rw [← this]
        constructor
        · rintro ⟨_, a, b⟩; constructor <;> linarith
        · rintro ⟨a, b⟩; exact ⟨hj, by linarith, by linarith⟩

/-- a 30-degree mascon at 350 degrees east on a -180..180 grid: the cell at 5 degrees west belongs to
it, the one at 5 degrees east is the first outside -/
example (G : Grid) (hG : ∀ j < G.nlon, -180 ≤ G.lon j ∧ G.lon j ≤ 180) (h : 0 < G.nlat ∧ 1 < G.nlon)
    (h0 : G.lat 0 = 10) (h1 : G.lon 0 = -5) (h2 : G.lon 1 = 5) :
    (0 ∈ (gsfcCells G ⟨350, 10, 30, 30⟩).1 ∧ 0 ∈ (gsfcCells G ⟨350, 10, 30, 30⟩).2) ∧
    ¬ (0 ∈ (gsfcCells G ⟨350, 10, 30, 30⟩).1 ∧ 1 ∈ (gsfcCells G ⟨350, 10, 30, 30⟩).2) := by
  constructor
  · rw [gsfc_cells G hG _ (by norm_num) (by norm_num) 0 0 h.1 (by omega), if_neg (by norm_num)]
    refine ⟨by norm_num [h0], 1, ?_, ?_⟩ <;> rw [h1] <;> norm_num
  · rw [gsfc_cells G hG _ (by norm_num) (by norm_num) 0 1 h.1 h.2, if_neg (by norm_num)]
    rintro ⟨_, n, a, b⟩
    rw [h2] at a b
    norm_num at a b
    have u1 : (n : ℝ) < 1 := by linarith
    have u2 : (0 : ℝ) < n := by linarith
    have u3 : n < 1 := by exact_mod_cast u1
    have u4 : 0 < n := by exact_mod_cast u2
    omega

/-- C42: `to_gsfc` gives every mascon that holds a cell the cos(latitude)-weighted mean of its cells,
and NaN to the others; centres are returned in -180..180 and the mascons in order -/
theorem toGsfc_spec (G : Grid) (h : NoPole G) (g : ℕ → ℕ → ℝ) (ks : List Gsfc) (n : ℕ) (hn : n < ks.length) :
    ∃ hn' : n < (toGsfc G g ks).length,
      (toGsfc G g ks)[n].2 = (wrapCenter ks[n].lonC, ks[n].latC) ∧
      ((gsfcCells G ks[n]).1.Nonempty ∧ (gsfcCells G ks[n]).2.Nonempty →
        (toGsfc G g ks)[n].1 = some (areaMean G (gsfcCells G ks[n]).1 (gsfcCells G ks[n]).2 g)) ∧
      (¬ ((gsfcCells G ks[n]).1.Nonempty ∧ (gsfcCells G ks[n]).2.Nonempty) → (toGsfc G g ks)[n].1 = none) := by
  have hI : ∀ i ∈ (gsfcCells G ks[n]).1, i < G.nlat := by
    intro i hi
    unfold gsfcCells at hi
    dsimp only at hi
    split_ifs at hi <;> exact within_sub _ _ _ _ _ hi
  refine ⟨by simpa [toGsfc] using hn, ?_, ?_, ?_⟩
  · simp [toGsfc]
  · rintro ⟨h1, h2⟩
    simp only [toGsfc, List.getElem_map]
    unfold gsfcValue
    rw [binMean_spec G h _ _ hI 1 g h1 h2, div_one]
  · intro hne
    simp only [toGsfc, List.getElem_map]
    unfold gsfcValue binMean
    rw [if_pos]
    rw [Finset.card_eq_zero, Finset.card_eq_zero, ← Finset.not_nonempty_iff_eq_empty, ← Finset.not_nonempty_iff_eq_empty]
    by_contra hc
    exact hne ⟨by by_contra q; exact hc (Or.inl q), by by_contra q; exact hc (Or.inr q)⟩

/-- C42: constants are preserved and the value lies between the smallest and the largest cell -/
theorem toGsfc_bounds (G : Grid) (h : NoPole G) (g : ℕ → ℕ → ℝ) (ks : List Gsfc) (n : ℕ) (hn : n < ks.length)
    (lo hi v : ℝ) (hv : ∀ i < G.nlat, ∀ j < G.nlon, lo ≤ g i j ∧ g i j ≤ hi)
    (hval : (toGsfc G g ks)[n]?.map Prod.fst = some (some v)) : lo ≤ v ∧ v ≤ hi := by
  obtain ⟨hn', _, h2, h3⟩ := toGsfc_spec G h g ks n hn
  have hI : (∀ i ∈ (gsfcCells G ks[n]).1, i < G.nlat) ∧ ∀ j ∈ (gsfcCells G ks[n]).2, j < G.nlon := by
    constructor <;> intro i hi <;> unfold gsfcCells at hi <;> dsimp only at hi <;>
      split_ifs at hi <;> exact within_sub _ _ _ _ _ hi
  rw [List.getElem?_eq_getElem hn'] at hval
  simp only [Option.map_some, Option.some.injEq] at hval
  by_cases hne : (gsfcCells G ks[n]).1.Nonempty ∧ (gsfcCells G ks[n]).2.Nonempty
  · rw [h2 hne, Option.some.injEq] at hval
    rw [← hval]
    exact areaMean_bounds G h _ _ hI.1 hne.1 hne.2 g lo hi fun i hi' j hj => hv i (hI.1 i hi') j (hI.2 j hj)
  · rw [h3 hne] at hval; simp at hval

/-- C42: on a grid with longitudes 0..360 every non-polar mascon whose longitude range lies between -180
and 0 (centres in the western hemisphere) is empty: its value is NaN although the grid covers it -/
theorem toGsfc_west_none (G : Grid) (hG : ∀ j < G.nlon, 0 ≤ G.lon j) (g : ℕ → ℕ → ℝ) (k : Gsfc)
    (hp : k.latC ≠ 90 ∧ k.latC ≠ -90) (h1 : -180 < wrapCenter k.lonC - k.lonS / 2)
    (h2 : wrapCenter k.lonC + k.lonS / 2 ≤ 0) : gsfcValue G g k = none := by
  have hp' : ¬ (k.latC = 90 ∨ k.latC = -90) := by rintro (e | e); exacts [hp.1 e, hp.2 e]
  have hJ : (gsfcCells G k).2 = ∅ := by
    unfold gsfcCells bounds
    rw [if_neg hp']
    dsimp only
    rw [if_neg (by rintro ⟨_, b⟩; linarith), if_neg (by rintro ⟨b, _⟩; linarith)]
    dsimp only
    rw [Finset.eq_empty_iff_forall_notMem]
    intro j hj
    rw [mem_within] at hj
    have := hG j hj.1
    linarith [hj.2.2]
  unfold gsfcValue binMean
  rw [if_pos (Or.inr (by rw [hJ]; rfl))]

/-- such a mascon on such a grid: 90 degrees west, although the grid has a cell at 270 degrees east -/
example (g : ℕ → ℕ → ℝ) : gsfcValue ⟨1, 4, fun _ => 0, fun j => 90 * j⟩ g ⟨270, 0, 10, 10⟩ = none :=
  toGsfc_west_none _ (fun j _ => by positivity) g _ (by norm_num) (by norm_num [wrapCenter]) (by norm_num [wrapCenter])

/-! ## From mascons to grids -/

theorem foldl_assign {A : Type} (cells : A → Finset ℕ × Finset ℕ) (ks : List (A × ℝ)) (d : ℕ → ℕ → ℝ) (i j : ℕ) :
    ks.foldl (fun d kv => assign d (cells kv.1) kv.2) d i j =
      ((ks.reverse.find? fun kv => decide (i ∈ (cells kv.1).1 ∧ j ∈ (cells kv.1).2)).map Prod.snd).getD (d i j) := by
  induction ks using List.reverseRecOn with
  | nil => rfl
  | append_singleton ks x ih =>
    rw [List.foldl_append, List.reverse_append]
    simp only [List.foldl_cons, List.foldl_nil, List.reverse_cons, List.reverse_nil, List.nil_append, List.cons_append]
    unfold assign
    by_cases h : i ∈ (cells x.1).1 ∧ j ∈ (cells x.1).2
    · rw [if_pos h, List.find?_cons_of_pos (by simpa using h)]; rfl
    · rw [if_neg h, List.find?_cons_of_neg (by simpa using h)]; exact ih

/-- the last mascon of a list satisfying a condition -/
def LastWith {A : Type} (P : A → Prop) (ks : List (A × ℝ)) (v : ℝ) : Prop :=
  ∃ pre k post, ks = pre ++ (k, v) :: post ∧ P k ∧ ∀ kv ∈ post, ¬ P kv.1

theorem find_last {A : Type} (P : A → Prop) [DecidablePred P] (ks : List (A × ℝ)) (d : ℝ) :
    LastWith P ks (((ks.reverse.find? fun kv => decide (P kv.1)).map Prod.snd).getD d) ∨
      ((∀ kv ∈ ks, ¬ P kv.1) ∧ ((ks.reverse.find? fun kv => decide (P kv.1)).map Prod.snd).getD d = d) := by
  induction ks using List.reverseRecOn with
  | nil => right; simp
  | append_singleton ks x ih =>
    rw [List.reverse_append]
    simp only [List.reverse_cons, List.reverse_nil, List.nil_append, List.cons_append]
    by_cases h : P x.1
    · rw [List.find?_cons_of_pos (by simpa using h)]
      left
      exact ⟨ks, x.1, [], by simp, h, by simp⟩
    · rw [List.find?_cons_of_neg (by simpa using h)]
      rcases ih with ⟨pre, k, post, e, h1, h2⟩ | ⟨h1, h2⟩
      · left
        refine ⟨pre, k, post ++ [x], ?_, h1, ?_⟩
        · conv_lhs => rw [e]
          simp
        · intro kv hkv
          rw [List.mem_append, List.mem_singleton] at hkv
          rcases hkv with hkv | rfl
          · exact h2 kv hkv
          · exact h
      · right
        refine ⟨?_, h2⟩
        intro kv hkv
        rw [List.mem_append, List.mem_singleton] at hkv
        rcases hkv with hkv | rfl
        · exact h1 kv hkv
        · exact h

/-- C42: every cell of the output grid of `from_gsfc` holds the value of the last mascon that contains
it, zero when none does -/
theorem fromGsfc_spec (s : ℝ) (ks : List (Gsfc × ℝ)) (i j : ℕ) :
    LastWith (fun k => i ∈ (gsfcCells (gsfcGrid s) k).1 ∧ j ∈ (gsfcCells (gsfcGrid s) k).2) ks (fromGsfc s ks i j) ∨
      ((∀ kv ∈ ks, ¬ (i ∈ (gsfcCells (gsfcGrid s) kv.1).1 ∧ j ∈ (gsfcCells (gsfcGrid s) kv.1).2)) ∧ fromGsfc s ks i j = 0) := by
  unfold fromGsfc
  rw [foldl_assign (gsfcCells (gsfcGrid s))]
  have := find_last (fun k => i ∈ (gsfcCells (gsfcGrid s) k).1 ∧ j ∈ (gsfcCells (gsfcGrid s) k).2) ks 0
  exact this

/-- C42: the same for `from_jpl` -/
theorem fromJpl_spec (s : ℝ) (ks : List (Jpl × ℝ)) (i j : ℕ) :
    LastWith (fun k => i ∈ (jplCells (jplGrid s) k).1 ∧ j ∈ (jplCells (jplGrid s) k).2) ks (fromJpl s ks i j) ∨
      ((∀ kv ∈ ks, ¬ (i ∈ (jplCells (jplGrid s) kv.1).1 ∧ j ∈ (jplCells (jplGrid s) kv.1).2)) ∧ fromJpl s ks i j = 0) := by
  unfold fromJpl
  rw [foldl_assign (jplCells (jplGrid s))]
  exact find_last (fun k => i ∈ (jplCells (jplGrid s) k).1 ∧ j ∈ (jplCells (jplGrid s) k).2) ks 0

theorem ceil_div (a s : ℝ) (N : ℕ) (hN : N ≠ 0) (hs : s = a / N) (ha : a ≠ 0) : ⌈a / s⌉.toNat = N := by
  have : a / s = N := by
    rw [hs]; have : (N : ℝ) ≠ 0 := by exact_mod_cast hN
    field_simp
  rw [this]; simp

/-- C42: for a spacing that divides 180 degrees (180/N) the output grids are the N x 2N cell centres of a
global grid: latitudes strictly between the poles (north to south for GSFC, south to north for JPL),
longitudes -180..180 (GSFC) and 0..360 (JPL) -/
theorem grids_spec (N : ℕ) (hN : N ≠ 0) :
    let s : ℝ := 180 / N
    ((gsfcGrid s).nlat = N ∧ (gsfcGrid s).nlon = 2 * N ∧ NoPole (gsfcGrid s) ∧
      (∀ j < 2 * N, -180 < (gsfcGrid s).lon j ∧ (gsfcGrid s).lon j < 180) ∧
      (∀ i, (gsfcGrid s).lat i = 90 - (i + 1 / 2) * s) ∧ ∀ j, (gsfcGrid s).lon j = -180 + (j + 1 / 2) * s) ∧
    ((jplGrid s).nlat = N ∧ (jplGrid s).nlon = 2 * N ∧ NoPole (jplGrid s) ∧
      (∀ j < 2 * N, 0 < (jplGrid s).lon j ∧ (jplGrid s).lon j < 360) ∧
      (∀ i, (jplGrid s).lat i = -90 + (i + 1 / 2) * s) ∧ ∀ j, (jplGrid s).lon j = (j + 1 / 2) * s) := by
  intro s
  have hN' : (0 : ℝ) < N := by exact_mod_cast Nat.pos_of_ne_zero hN
  have hs : 0 < s := by positivity
  have hsN : s * N = 180 := by change 180 / (N : ℝ) * N = 180; field_simp
  have n1 : (gsfcGrid s).nlat = N := by
    change ⌈(-90 - s / 2 - (90 - s / 2)) / -s⌉.toNat = N
    rw [show (-90 - s / 2 - (90 - s / 2)) / -s = 180 / s by field_simp; ring]
    exact ceil_div 180 s N hN rfl (by norm_num)
  have n2 : (gsfcGrid s).nlon = 2 * N := by
    change ⌈(180 + s / 2 - (-180 + s / 2)) / s⌉.toNat = 2 * N
    rw [show 180 + s / 2 - (-180 + s / 2) = 360 by ring]
    exact ceil_div 360 s (2 * N) (by omega) (by push_cast; change 180 / (N : ℝ) = _; field_simp; norm_num) (by norm_num)
  have n3 : (jplGrid s).nlat = N := by
    change ⌈(90 + s / 2 - (-90 + s / 2)) / s⌉.toNat = N
    rw [show 90 + s / 2 - (-90 + s / 2) = 180 by ring]
    exact ceil_div 180 s N hN rfl (by norm_num)
  have n4 : (jplGrid s).nlon = 2 * N := by
    change ⌈(360 + s / 2 - s / 2) / s⌉.toNat = 2 * N
    rw [show 360 + s / 2 - s / 2 = 360 by ring]
    exact ceil_div 360 s (2 * N) (by omega) (by push_cast; change 180 / (N : ℝ) = _; field_simp; norm_num) (by norm_num)
  have up : ∀ i M : ℕ, i < M → ((i : ℝ) + 1 / 2) * s < s * M := by
    intro i M h
    have : (i : ℝ) + 1 ≤ M := by exact_mod_cast h
    nlinarith
  have lw : ∀ i : ℕ, 0 < ((i : ℝ) + 1 / 2) * s := fun i => by positivity
  have l1 : ∀ i, (gsfcGrid s).lat i = 90 - (i + 1 / 2) * s := fun i => by change 90 - s / 2 + i * -s = _; ring
  have l2 : ∀ i, (gsfcGrid s).lon i = -180 + (i + 1 / 2) * s := fun i => by change -180 + s / 2 + i * s = _; ring
  have l3 : ∀ i, (jplGrid s).lat i = -90 + (i + 1 / 2) * s := fun i => by change -90 + s / 2 + i * s = _; ring
  have l4 : ∀ i, (jplGrid s).lon i = (i + 1 / 2) * s := fun i => by change s / 2 + i * s = _; ring
  have h360 : s * ((2 * N : ℕ) : ℝ) = 360 := by push_cast; linarith
  refine ⟨⟨n1, n2, ?_, ?_, l1, l2⟩, n3, n4, ?_, ?_, l3, l4⟩
  · intro i hi; rw [n1] at hi; rw [l1]; have := up i N hi; have := lw i; constructor <;> linarith
  · intro j hj; rw [l2]; have := up j _ hj; have := lw j; constructor <;> linarith
  · intro i hi; rw [n3] at hi; rw [l3]; have := up i N hi; have := lw i; constructor <;> linarith
  · intro j hj; rw [l4]; have := up j _ hj; have := lw j; constructor <;> linarith

/-- no cell lies in two mascons -/
def Disjoint' {A : Type} (cells : A → Finset ℕ × Finset ℕ) (ks : List (A × ℝ)) : Prop :=
  ks.Pairwise fun a b => ∀ i j, i ∈ (cells a.1).1 → j ∈ (cells a.1).2 → ¬ (i ∈ (cells b.1).1 ∧ j ∈ (cells b.1).2)

theorem lastWith_disjoint {A : Type} (cells : A → Finset ℕ × Finset ℕ) (ks : List (A × ℝ)) (hd : Disjoint' cells ks)
    (k : A) (v : ℝ) (hk : (k, v) ∈ ks) (i j : ℕ) (hi : i ∈ (cells k).1) (hj : j ∈ (cells k).2) (w : ℝ)
    (hl : LastWith (fun k => i ∈ (cells k).1 ∧ j ∈ (cells k).2) ks w) : w = v := by
  obtain ⟨pre, k', post, e, h1, h2⟩ := hl
  unfold Disjoint' at hd
  rw [e] at hk hd
  rw [List.mem_append, List.mem_cons] at hk
  rw [List.pairwise_append] at hd
  rcases hk with hk | hk | hk
  · exact absurd h1 (hd.2.2 _ hk (k', w) (by simp) i j hi hj)
  · rw [Prod.mk.injEq] at hk; exact hk.2.symm
  · exact absurd ⟨hi, hj⟩ (h2 _ hk)

/-- C42: spreading disjoint GSFC mascons over a grid and averaging again returns every value whose mascon
holds a cell -/
theorem gsfc_roundtrip (N : ℕ) (hN : N ≠ 0) (ks : List (Gsfc × ℝ)) (hd : Disjoint' (gsfcCells (gsfcGrid (180 / N))) ks)
    (k : Gsfc) (v : ℝ) (hk : (k, v) ∈ ks) (h1 : (gsfcCells (gsfcGrid (180 / N)) k).1.Nonempty)
    (h2 : (gsfcCells (gsfcGrid (180 / N)) k).2.Nonempty) :
    gsfcValue (gsfcGrid (180 / N)) (fromGsfc (180 / N) ks) k = some v := by
  set G := gsfcGrid (180 / N) with hG
  have hp : NoPole G := (grids_spec N hN).1.2.2.1
  have hI : ∀ i ∈ (gsfcCells G k).1, i < G.nlat := by
    intro i hi; unfold gsfcCells at hi; dsimp only at hi; split_ifs at hi <;> exact within_sub _ _ _ _ _ hi
  unfold gsfcValue
  rw [binMean_spec G hp _ _ hI 1 _ h1 h2, div_one, areaMean_const G hp _ _ hI h1 h2 _ v]
  intro i hi j hj
  rcases fromGsfc_spec (180 / N) ks i j with h | ⟨h, _⟩
  · exact lastWith_disjoint _ ks hd k v hk i j hi hj _ h
  · exact absurd ⟨hi, hj⟩ (h _ hk)

/-! ## JPL -/

/-- C42: `to_jpl` divides the weighted mean of the cells once more by the number of latitudes in the
mascon; a mascon without a latitude gets zero and is masked; one with latitudes but no longitude is NaN
and not masked -/
theorem jpl_spec (G : Grid) (h : NoPole G) (g : ℕ → ℕ → ℝ) (k : Jpl) :
    ((jplCells G k).1.Nonempty → (jplCells G k).2.Nonempty → (jplValue G g k).data =
        some (areaMean G (jplCells G k).1 (jplCells G k).2 g / (jplCells G k).1.card) ∧ (jplValue G g k).mask = false) ∧
    (¬ (jplCells G k).1.Nonempty → (jplValue G g k).data = some 0 ∧ (jplValue G g k).mask = true) ∧
    ((jplCells G k).1.Nonempty → ¬ (jplCells G k).2.Nonempty →
      (jplValue G g k).data = none ∧ (jplValue G g k).mask = false) := by
  have hI : ∀ i ∈ (jplCells G k).1, i < G.nlat := fun i hi => within_sub _ _ _ _ _ hi
  refine ⟨?_, ?_, ?_⟩
  · intro h1 h2
    have hc : (jplCells G k).1.card ≠ 0 := (Finset.card_pos.mpr h1).ne'
    unfold jplValue
    dsimp only
    rw [if_neg hc, binMean_spec G h _ _ hI _ g h1 h2]
    exact ⟨rfl, by simpa using hc⟩
  · intro h1
    have hc : (jplCells G k).1.card = 0 := by rw [Finset.card_eq_zero]; exact Finset.not_nonempty_iff_eq_empty.mp h1
    unfold jplValue
    dsimp only
    rw [if_pos hc]
    exact ⟨rfl, by simpa using hc⟩
  · intro h1 h2
    have hc : (jplCells G k).1.card ≠ 0 := (Finset.card_pos.mpr h1).ne'
    unfold jplValue
    dsimp only
    rw [if_neg hc]
    refine ⟨?_, by simpa using hc⟩
    unfold binMean
    rw [if_pos (Or.inr (by rw [Finset.card_eq_zero]; exact Finset.not_nonempty_iff_eq_empty.mp h2))]

/-- C42: the coordinates: centre of the bounds, or the pole at longitude zero -/
theorem jpl_coords (G : Grid) (g : ℕ → ℕ → ℝ) (k : Jpl) :
    (|k.lat1| = 90 → (jplValue G g k).lat = k.lat1 ∧ (jplValue G g k).lon = 0) ∧
    (|k.lat1| ≠ 90 → |k.lat0| = 90 → (jplValue G g k).lat = k.lat0 ∧ (jplValue G g k).lon = 0) ∧
    (|k.lat1| ≠ 90 → |k.lat0| ≠ 90 → (jplValue G g k).lat = (k.lat0 + k.lat1) / 2 ∧
      (jplValue G g k).lon = (k.lon1 + k.lon2) / 2) := by
  refine ⟨?_, ?_, ?_⟩
  · intro h; unfold jplValue; dsimp only; rw [if_pos h]; exact ⟨rfl, rfl⟩
  · intro h h'; unfold jplValue; dsimp only; rw [if_neg h, if_pos h']; exact ⟨rfl, rfl⟩
  · intro h h'; unfold jplValue; dsimp only; rw [if_neg h, if_neg h']; exact ⟨by ring, rfl⟩

/-- C42: a JPL mascon holds exactly the cells with latitude in `[lat1, lat0)`, longitude in
`[lon0, lon2)`; longitudes are not wrapped -/
theorem jpl_cells (G : Grid) (k : Jpl) (i j : ℕ) :
    (i ∈ (jplCells G k).1 ∧ j ∈ (jplCells G k).2) ↔ (i < G.nlat ∧ j < G.nlon) ∧
      (k.lat1 ≤ G.lat i ∧ G.lat i < k.lat0) ∧ (k.lon0 ≤ G.lon j ∧ G.lon j < k.lon2) := by
  unfold jplCells
  dsimp only
  rw [mem_within, mem_within]
  tauto

/-- C42: spreading disjoint JPL mascons over a grid and averaging again returns the value divided by the
number of latitudes of the mascon: the value itself only for mascons one latitude high (or value 0) -/
theorem jpl_roundtrip (N : ℕ) (hN : N ≠ 0) (ks : List (Jpl × ℝ)) (hd : Disjoint' (jplCells (jplGrid (180 / N))) ks)
    (k : Jpl) (v : ℝ) (hk : (k, v) ∈ ks) (h1 : (jplCells (jplGrid (180 / N)) k).1.Nonempty)
    (h2 : (jplCells (jplGrid (180 / N)) k).2.Nonempty) :
    (jplValue (jplGrid (180 / N)) (fromJpl (180 / N) ks) k).data = some (v / (jplCells (jplGrid (180 / N)) k).1.card) ∧
    ((jplValue (jplGrid (180 / N)) (fromJpl (180 / N) ks) k).data = some v ↔
      (jplCells (jplGrid (180 / N)) k).1.card = 1 ∨ v = 0) := by
  set G := jplGrid (180 / N) with hG
  have hp : NoPole G := (grids_spec N hN).2.2.2.1
  have hI : ∀ i ∈ (jplCells G k).1, i < G.nlat := fun i hi => within_sub _ _ _ _ _ hi
  have e : (jplValue G (fromJpl (180 / N) ks) k).data = some (v / (jplCells G k).1.card) := by
    rw [((jpl_spec G hp _ k).1 h1 h2).1, areaMean_const G hp _ _ hI h1 h2 _ v]
    intro i hi j hj
    rcases fromJpl_spec (180 / N) ks i j with h | ⟨h, _⟩
    · exact lastWith_disjoint _ ks hd k v hk i j hi hj _ h
    · exact absurd ⟨hi, hj⟩ (h _ hk)
  refine ⟨e, ?_⟩
  rw [e, Option.some.injEq]
  have hc : (0 : ℝ) < (jplCells G k).1.card := by exact_mod_cast Finset.card_pos.mpr h1
  rw [div_eq_iff hc.ne']
  constructor
  · intro q
    by_cases hv : v = 0
    · exact Or.inr hv
    · left
      have : ((jplCells G k).1.card : ℝ) = 1 := by
        have : v * ((jplCells G k).1.card - 1 : ℝ) = 0 := by linarith
        rcases mul_eq_zero.mp this with h | h
        · exact absurd h hv
        · linarith
      exact_mod_cast this
  · rintro (q | q)
    · rw [q]; simp
    · rw [q]; simp

/-- a two-latitude JPL mascon on the 45-degree grid: a constant 1 comes back as 1/2 -/
example : (jplValue (jplGrid (180 / (4 : ℕ))) (fromJpl (180 / (4 : ℕ)) [(⟨90, 0, 0, 0, 45⟩, 1)]) ⟨90, 0, 0, 0, 45⟩).data =
    some (1 / 2) := by
  obtain ⟨n1, n2, _, _, l1, l2⟩ := (grids_spec 4 (by norm_num)).2
  have hc : (jplCells (jplGrid (180 / (4 : ℕ))) ⟨90, 0, 0, 0, 45⟩).1 = {2, 3} := by
    ext i
    unfold jplCells
    dsimp only
    rw [mem_within, n1, l1]
    simp only [Finset.mem_insert, Finset.mem_singleton]
    constructor
    · rintro ⟨h, a, b⟩
      interval_cases i <;> first | (left; rfl) | (right; rfl) | (exfalso; norm_num at a)
    · rintro (rfl | rfl) <;> norm_num
  have h2 : 0 ∈ (jplCells (jplGrid (180 / (4 : ℕ))) ⟨90, 0, 0, 0, 45⟩).2 := by
    unfold jplCells; dsimp only; rw [mem_within, n2, l2]; norm_num
  have := (jpl_roundtrip 4 (by norm_num) [(⟨90, 0, 0, 0, 45⟩, 1)] (by simp [Disjoint']) ⟨90, 0, 0, 0, 45⟩ 1 (by simp)
    (by rw [hc]; simp) ⟨0, h2⟩).1
  rw [this, hc]
  norm_num

/-- **C42** mascon centres given from 0 to 360 degrees are reported from -180 (exclusive) to 180 (inclusive), as the
same meridian -/
theorem wrapCenter_spec (lon : ℝ) (h0 : 0 ≤ lon) (h1 : lon ≤ 360) :
    -180 < wrapCenter lon ∧ wrapCenter lon ≤ 180 ∧ (wrapCenter lon = lon ∨ wrapCenter lon = lon - 360) := by
  unfold wrapCenter
  split
  · exact ⟨by linarith, by linarith, Or.inr rfl⟩
  · exact ⟨by linarith, by linarith, Or.inl rfl⟩

example : wrapCenter 270 = -90 ∧ wrapCenter 180 = 180 := by norm_num [wrapCenter]

/-- **C42** the transpose keyword exchanges the axes of the returned grid, and nothing else -/
theorem output_spec (d : ℕ → ℕ → ℝ) (i j : ℕ) : output true d j i = d i j ∧ output false d i j = d i j := ⟨rfl, rfl⟩

end Verif.Mascons
