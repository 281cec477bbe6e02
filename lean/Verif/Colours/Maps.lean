import Verif.Colours.Props
/-!
# C115: the colour maps
-/
namespace Verif.Colours

/-- the colour of the wheel with the hue, saturation and value that `rgb_to_hsv` finds is the colour -/
theorem rgb_isHsv (r g b : ℚ) (hr : 0 ≤ r) (hg : 0 ≤ g) (hb : 0 ≤ b) :
    IsHsv (rgbToHsv r g b).1 (rgbToHsv r g b).2.1 (rgbToHsv r g b).2.2 (r, g, b) := by
  by_cases heq : min (min r g) b = max (max r g) b
  · have h1 : r = max (max r g) b := le_antisymm (le_max_of_le_left (le_max_left _ _)) (heq ▸ min_le_of_left_le (min_le_left _ _))
    have h2 : g = max (max r g) b := le_antisymm (le_max_of_le_left (le_max_right _ _)) (heq ▸ min_le_of_left_le (min_le_right _ _))
    have h3 : b = max (max r g) b := le_antisymm (le_max_right _ _) (heq ▸ min_le_right _ _)
    have : rgbToHsv r g b = (0, 0, max (max r g) b) := by unfold rgbToHsv; simp only [if_pos heq]
    rw [this]
    refine ⟨0, 0, 0, by norm_num, le_rfl, by norm_num, by norm_num, ?_⟩
    simp only [shade, sub_zero, zero_mul, add_zero, mul_one]
    rw [Prod.mk.injEq, Prod.mk.injEq]
    exact ⟨h1, h2, h3⟩
  · -- a general step: the components from the three differences
    have step : ∀ (v p : ℚ), max (max r g) b = v → min (min r g) b = p → p < v → 0 < v → ∀ (k : ℕ) (f x : ℚ) (n : ℤ), k < 6 → 0 ≤ f →
        f ≤ 1 → (if r = v then (v - b) / (v - p) - (v - g) / (v - p) else if g = v then 2 + (v - r) / (v - p) - (v - b) / (v - p)
          else 4 + (v - g) / (v - p) - (v - r) / (v - p)) = x → (n : ℚ) ≤ x / 6 → x / 6 < n + 1 → x - 6 * n = k + f →
        (r, g, b) = shade ((v - p) / v) v (mix f (wheel k) (wheel (k + 1))) →
        IsHsv (rgbToHsv r g b).1 (rgbToHsv r g b).2.1 (rgbToHsv r g b).2.2 (r, g, b) := by
      intro v p hmax hmin hlt hv k f x n hk f0 f1 hx h0 h1 hkf hc
      rw [rgb_eq r g b v p x n hmax hmin hlt.ne hx h0 h1]
      refine ⟨0, k, f, hk, f0, f1, ?_, hc⟩
      simp only [Nat.cast_zero, mul_zero, zero_add]
      rw [← hkf]; ring
    have comp : ∀ v p y : ℚ, p < v → 0 < v → v * (1 - (v - p) / v + (v - p) / v * (1 - (v - y) / (v - p))) = y := by
      intro v p y h1 h2
      have : v - p ≠ 0 := by linarith
      field_simp
      ring
    have comp1 : ∀ v p : ℚ, 0 < v → v * (1 - (v - p) / v) = p := by intro v p h2; field_simp; ring
    have frac : ∀ v p y : ℚ, p ≤ y → y ≤ v → p < v → 0 ≤ (v - y) / (v - p) ∧ (v - y) / (v - p) ≤ 1 := by
      intro v p y h1 h2 h3
      exact ⟨div_nonneg (by linarith) (by linarith), by rw [div_le_one (by linarith)]; linarith⟩
    rcases le_total g r with hgr | hgr
    · rcases le_total b r with hbr | hbr
      · -- red is the largest
        have hmax : max (max r g) b = r := by rw [max_eq_left hgr, max_eq_left hbr]
        rcases le_total b g with hbg | hbg
        · have hmin : min (min r g) b = b := by rw [min_eq_right hgr, min_eq_right hbg]
          have hlt : b < r := lt_of_le_of_ne hbr (by rw [hmax, hmin] at heq; exact heq)
          have hv : 0 < r := by linarith
          obtain ⟨f0, f1⟩ := frac r b g hbg hgr hlt
          refine step r b hmax hmin hlt hv 0 (1 - (r - g) / (r - b)) (1 - (r - g) / (r - b)) 0 (by norm_num) (by linarith) (by linarith)
            (by rw [if_pos rfl, div_self (by linarith)]) (by push_cast; linarith) (by push_cast; linarith) (by push_cast; ring) ?_
          have c1 := comp r b g hlt hv
          have c2 := comp1 r b hv
          simp only [wheel, mix, shade]
          rw [Prod.mk.injEq, Prod.mk.injEq]
          refine ⟨by ring, ?_, ?_⟩
          · rw [show (1 - (1 - (r - g) / (r - b))) * 0 + (1 - (r - g) / (r - b)) * 1 = 1 - (r - g) / (r - b) by ring]; exact c1.symm
          · rw [mul_zero, mul_zero, add_zero, mul_zero, add_zero]; exact c2.symm
        · have hmin : min (min r g) b = g := by rw [min_eq_right hgr, min_eq_left hbg]
          have hlt : g < r := lt_of_le_of_ne hgr (by rw [hmax, hmin] at heq; exact heq)
          have hv : 0 < r := by linarith
          obtain ⟨f0, f1⟩ := frac r g b hbg hbr hlt
          have c1 := comp r g b hlt hv
          have c2 := comp1 r g hv
          by_cases hz : b = g
          · -- hue zero
            refine step r g hmax hmin hlt hv 0 0 0 0 (by norm_num) le_rfl (by norm_num)
              (by rw [if_pos rfl, hz]; ring) (by norm_num) (by norm_num) (by norm_num) ?_
            simp only [wheel, mix, shade]
            rw [Prod.mk.injEq, Prod.mk.injEq]
            refine ⟨by ring, ?_, ?_⟩
            · simp only [mul_zero, zero_mul, add_zero]; exact c2.symm
            · rw [hz]; simp only [mul_zero, add_zero]; exact c2.symm
          · have hgb : g < b := lt_of_le_of_ne hbg (Ne.symm hz)
            have f1' : (r - b) / (r - g) < 1 := by rw [div_lt_one (by linarith)]; linarith
            refine step r g hmax hmin hlt hv 5 ((r - b) / (r - g)) ((r - b) / (r - g) - 1) (-1) (by norm_num) f0 f1
              (by rw [if_pos rfl, div_self (a := r - g) (by linarith)]) (by push_cast; linarith) (by push_cast; linarith)
              (by push_cast; ring) ?_
            simp only [wheel, mix, shade]
            rw [Prod.mk.injEq, Prod.mk.injEq]
            refine ⟨by ring, ?_, ?_⟩
            · simp only [mul_zero, add_zero]; exact c2.symm
            · rw [show (1 - (r - b) / (r - g)) * 1 + (r - b) / (r - g) * 0 = 1 - (r - b) / (r - g) by ring]; exact c1.symm
      · -- blue is the largest
        rcases eq_or_lt_of_le hbr with hrb | hrb
        · -- red and blue
          subst hrb
          have hmax : max (max r g) r = r := by rw [max_eq_left hgr, max_self]
          have hmin : min (min r g) r = g := by rw [min_eq_right hgr, min_eq_left hgr]
          have hlt : g < r := lt_of_le_of_ne hgr (by rw [hmax, hmin] at heq; exact heq)
          have hv : 0 < r := by linarith
          have c2 := comp1 r g hv
          refine step r g hmax hmin hlt hv 5 0 (-1) (-1) (by norm_num) le_rfl (by norm_num)
            (by rw [if_pos rfl, div_self (a := r - g) (by linarith)]; simp) (by norm_num) (by norm_num) (by norm_num) ?_
          simp only [wheel, mix, shade]
          rw [Prod.mk.injEq, Prod.mk.injEq]
          refine ⟨by ring, ?_, by ring⟩
          simp only [mul_zero, add_zero]; exact c2.symm
        · have hmax : max (max r g) b = b := by rw [max_eq_left hgr, max_eq_right hbr]
          have hmin : min (min r g) b = g := by rw [min_eq_right hgr, min_eq_left (hgr.trans hbr)]
          have hlt : g < b := lt_of_le_of_lt hgr hrb
          have hv : 0 < b := by linarith
          obtain ⟨f0, f1⟩ := frac b g r hgr hbr hlt
          have c1 := comp b g r hlt hv
          have c2 := comp1 b g hv
          refine step b g hmax hmin hlt hv 4 (1 - (b - r) / (b - g)) (5 - (b - r) / (b - g)) 0 (by norm_num) (by linarith) (by linarith)
            (by rw [if_neg hrb.ne, if_neg hlt.ne, div_self (a := b - g) (by linarith)]; ring) (by push_cast; linarith)
            (by push_cast; linarith) (by push_cast; ring) ?_
          simp only [wheel, mix, shade]
          rw [Prod.mk.injEq, Prod.mk.injEq]
          refine ⟨?_, ?_, by ring⟩
          · rw [show (1 - (1 - (b - r) / (b - g))) * 0 + (1 - (b - r) / (b - g)) * 1 = 1 - (b - r) / (b - g) by ring]; exact c1.symm
          · simp only [mul_zero, add_zero]; exact c2.symm
    · rcases le_total b g with hbg | hbg
      · -- green is the largest
        have hmax : max (max r g) b = g := by rw [max_eq_right hgr, max_eq_left hbg]
        rcases eq_or_lt_of_le hgr with hrg | hrg
        · subst hrg
          have hmin : min (min r r) b = b := by rw [min_self, min_eq_right hbg]
          have hlt : b < r := lt_of_le_of_ne hbg (by rw [hmax, hmin] at heq; exact heq)
          have hv : 0 < r := by linarith
          have c2 := comp1 r b hv
          refine step r b hmax hmin hlt hv 1 0 1 0 (by norm_num) le_rfl (by norm_num)
            (by rw [if_pos rfl, div_self (a := r - b) (by linarith)]; simp) (by norm_num) (by norm_num) (by norm_num) ?_
          simp only [wheel, mix, shade]
          rw [Prod.mk.injEq, Prod.mk.injEq]
          refine ⟨by ring, by ring, ?_⟩
          simp only [mul_zero, add_zero]; exact c2.symm
        · rcases le_total b r with hbr | hbr
          · have hmin : min (min r g) b = b := by rw [min_eq_left hgr, min_eq_right hbr]
            have hlt : b < g := lt_of_le_of_lt hbr hrg
            have hv : 0 < g := by linarith
            obtain ⟨f0, f1⟩ := frac g b r hbr hgr hlt
            have c1 := comp g b r hlt hv
            have c2 := comp1 g b hv
            refine step g b hmax hmin hlt hv 1 ((g - r) / (g - b)) (1 + (g - r) / (g - b)) 0 (by norm_num) f0 f1
              (by rw [if_neg hrg.ne, if_pos rfl, div_self (a := g - b) (by linarith)]; ring) (by push_cast; linarith)
              (by push_cast; linarith) (by push_cast; ring) ?_
            simp only [wheel, mix, shade]
            rw [Prod.mk.injEq, Prod.mk.injEq]
            refine ⟨?_, by ring, ?_⟩
            · rw [show (1 - (g - r) / (g - b)) * 1 + (g - r) / (g - b) * 0 = 1 - (g - r) / (g - b) by ring]; exact c1.symm
            · simp only [mul_zero, add_zero]; exact c2.symm
          · have hmin : min (min r g) b = r := by rw [min_eq_left hgr, min_eq_left hbr]
            have hv : 0 < g := by linarith
            obtain ⟨f0, f1⟩ := frac g r b hbr hbg hrg
            have c1 := comp g r b hrg hv
            have c2 := comp1 g r hv
            refine step g r hmax hmin hrg hv 2 (1 - (g - b) / (g - r)) (3 - (g - b) / (g - r)) 0 (by norm_num) (by linarith) (by linarith)
              (by rw [if_neg hrg.ne, if_pos rfl, div_self (a := g - r) (by linarith)]; ring) (by push_cast; linarith)
              (by push_cast; linarith) (by push_cast; ring) ?_
            simp only [wheel, mix, shade]
            rw [Prod.mk.injEq, Prod.mk.injEq]
            refine ⟨?_, by ring, ?_⟩
            · simp only [mul_zero, add_zero]; exact c2.symm
            · rw [show (1 - (1 - (g - b) / (g - r))) * 0 + (1 - (g - b) / (g - r)) * 1 = 1 - (g - b) / (g - r) by ring]; exact c1.symm
      · -- blue is the largest
        rcases eq_or_lt_of_le hbg with hgb | hgb
        · subst hgb
          have hmax : max (max r g) g = g := by rw [max_eq_right hgr, max_self]
          have hmin : min (min r g) g = r := by rw [min_eq_left hgr, min_eq_left hgr]
          have hlt : r < g := lt_of_le_of_ne hgr (by rw [hmax, hmin] at heq; exact heq)
          have hv : 0 < g := by linarith
          have c2 := comp1 g r hv
          refine step g r hmax hmin hlt hv 3 0 3 0 (by norm_num) le_rfl (by norm_num)
            (by rw [if_neg hlt.ne, if_pos rfl, div_self (a := g - r) (by linarith)]; norm_num) (by norm_num) (by norm_num)
            (by norm_num) ?_
          simp only [wheel, mix, shade]
          rw [Prod.mk.injEq, Prod.mk.injEq]
          refine ⟨?_, by ring, by ring⟩
          simp only [mul_zero, add_zero]; exact c2.symm
        · have hmax : max (max r g) b = b := by rw [max_eq_right hgr, max_eq_right hbg]
          have hmin : min (min r g) b = r := by rw [min_eq_left hgr, min_eq_left (hgr.trans hbg)]
          have hlt : r < b := lt_of_le_of_lt hgr hgb
          have hv : 0 < b := by linarith
          obtain ⟨f0, f1⟩ := frac b r g hgr hbg hlt
          have c1 := comp b r g hlt hv
          have c2 := comp1 b r hv
          refine step b r hmax hmin hlt hv 3 ((b - g) / (b - r)) (3 + (b - g) / (b - r)) 0 (by norm_num) f0 f1
            (by rw [if_neg hlt.ne, if_neg hgb.ne, div_self (a := b - r) (by linarith)]; ring) (by push_cast; linarith)
            (by push_cast; linarith) (by push_cast; ring) ?_
          simp only [wheel, mix, shade]
          rw [Prod.mk.injEq, Prod.mk.injEq]
          refine ⟨?_, ?_, by ring⟩
          · simp only [mul_zero, add_zero]; exact c2.symm
          · rw [show (1 - (b - g) / (b - r)) * 1 + (b - g) / (b - r) * 0 = 1 - (b - g) / (b - r) by ring]; exact c1.symm

/-- C115: the colour is found again from its hue, saturation and value. -/
theorem rgb_round_trip (r g b : ℚ) (hr : 0 ≤ r) (hg : 0 ≤ g) (hb : 0 ≤ b) :
    hsvToRgb (rgbToHsv r g b).1 (rgbToHsv r g b).2.1 (rgbToHsv r g b).2.2 = (r, g, b) := by
  refine isHsv_unique _ _ _ _ _ (hsv_spec _ _ _ ?_) (rgb_isHsv r g b hr hg hb)
  unfold rgbToHsv
  simp only
  split_ifs
  · exact le_rfl
  · exact Int.fract_nonneg _
  · exact Int.fract_nonneg _
  · exact Int.fract_nonneg _

/-! ## Maps -/

theorem nodes_ok (cs : List Triple) (h : cs.length ≠ 1) (l : List (ℚ × Triple)) (hl : nodes cs = .ok l) :
    l.length = cs.length ∧ ∀ (k : ℕ) c, cs[k]? = some c → l[k]? = some ((k : ℚ) / ((cs.length : ℚ) - 1), c) := by
  unfold nodes at hl
  rw [if_neg h] at hl
  obtain rfl := Except.ok.inj hl
  refine ⟨by simp, fun k c hk => ?_⟩
  rw [List.getElem?_map, List.getElem?_zipIdx, hk]
  simp

/-- a colour map: `n` nodes at equal distances from 0 to 1, node `k` with hue `h k`, saturation `s k` and value 1 -/
def IsMap (l : List (ℚ × Triple)) (n : ℕ) (h s : ℕ → ℚ) : Prop :=
  l.length = n ∧ ∀ k : ℕ, k < n → ∃ c, l[k]? = some ((k : ℚ) / ((n : ℚ) - 1), c) ∧ IsHsv (h k) (s k) 1 c ∧ InUnit c

theorem linspace_unit (n k : ℕ) (hn : 2 ≤ n) (hk : k < n) : linspace 0 1 n k = (k : ℚ) / ((n : ℚ) - 1) ∧
    0 ≤ linspace 0 1 n k ∧ linspace 0 1 n k ≤ 1 := by
  have hn1 : (0 : ℚ) < (n : ℚ) - 1 := by have : (2 : ℚ) ≤ n := by exact_mod_cast hn
                                         linarith
  have e : linspace 0 1 n k = (k : ℚ) / ((n : ℚ) - 1) := by unfold linspace; rw [if_neg (by omega)]; ring
  refine ⟨e, ?_, ?_⟩
  · rw [e]; positivity
  · rw [e, div_le_one hn1]
    have : (k : ℚ) + 1 ≤ n := by exact_mod_cast hk
    linarith

theorem clip_unit (x : ℚ) : 0 ≤ clip x ∧ clip x ≤ 1 := by
  unfold clip
  exact ⟨le_min (le_max_right _ _) (by norm_num), min_le_right _ _⟩

theorem clip_eq (x : ℚ) (h : 0 ≤ x) : clip x = min x 1 := by unfold clip; rw [max_eq_left h]

theorem isMap_of (cs : List Triple) (n : ℕ) (hn : 2 ≤ n) (hlen : cs.length = n) (h s : ℕ → ℚ)
    (hc : ∀ k, k < n → ∃ c, cs[k]? = some c ∧ IsHsv (h k) (s k) 1 c) (hs : ∀ k, k < n → 0 ≤ s k ∧ s k ≤ 1) :
    ∃ l, nodes cs = .ok l ∧ IsMap l n h s := by
  have h1 : cs.length ≠ 1 := by omega
  have hok : ∃ l, nodes cs = .ok l := by unfold nodes; rw [if_neg h1]; exact ⟨_, rfl⟩
  obtain ⟨l, hl⟩ := hok
  obtain ⟨a, b⟩ := nodes_ok cs h1 l hl
  refine ⟨l, hl, by omega, fun k hk => ?_⟩
  obtain ⟨c, c1, c2⟩ := hc k hk
  refine ⟨c, ?_, c2, isHsv_unit _ _ _ _ c2 (hs k hk) (by norm_num)⟩
  rw [b k c c1, hlen]

/-- names are not case-sensitive: `Joughin`, `JOUGHIN`, `joughin` are the same map -/
def IsName (name : List Char) (want : String) : Prop := capitalize name = want.toList

/-- C115: the map `Joughin` with `n ≥ 2` colours: saturated colours of hue 0.1 to 1 in equal steps. -/
theorem custom_joughin (n : ℕ) (hn : 2 ≤ n) (name : List Char) (hname : IsName name "Joughin") :
    ∃ l, custom n name = .ok l ∧ IsMap l n (fun k => 1 / 10 + 9 / 10 * ((k : ℚ) / ((n : ℚ) - 1))) (fun _ => 1) := by
  unfold custom
  rw [show capitalize name = "Joughin".toList from hname]
  simp only [if_true, if_neg (by omega : ¬ (n : ℤ) < 0), Int.toNat_natCast]
  refine isMap_of _ n hn (by simp [joughin]) _ _ (fun k hk => ?_) (fun _ _ => by norm_num)
  refine ⟨_, by rw [joughin, List.getElem?_map, List.getElem?_range hk]; rfl, ?_⟩
  have e : linspace (1 / 10) 1 n k = 1 / 10 + 9 / 10 * ((k : ℚ) / ((n : ℚ) - 1)) := by
    unfold linspace; rw [if_neg (by omega)]; ring
  rw [← e]
  refine hsv_spec _ _ _ ?_
  have := linspace_unit n k hn hk
  rw [e, ← this.1]; linarith [this.2.1]

/-- C115: the map `Rignot` with `n ≥ 2` colours: hues from 0 to 1 in equal steps, of saturation 0.1 more than the hue, at most 1. -/
theorem custom_rignot (n : ℕ) (hn : 2 ≤ n) (name : List Char) (hname : IsName name "Rignot") :
    ∃ l, custom n name = .ok l ∧ IsMap l n (fun k => (k : ℚ) / ((n : ℚ) - 1)) (fun k => min (1 / 10 + (k : ℚ) / ((n : ℚ) - 1)) 1) := by
  unfold custom
  rw [show capitalize name = "Rignot".toList from hname]
  rw [if_neg (by decide), if_neg (by decide), if_pos rfl, if_neg (by omega : ¬ (n : ℤ) < 0), Int.toNat_natCast]
  refine isMap_of _ n hn (by simp [rignot]) _ _ (fun k hk => ?_) (fun k hk => ?_)
  · refine ⟨_, by rw [rignot, List.getElem?_map, List.getElem?_range hk]; rfl, ?_⟩
    obtain ⟨e, p0, p1⟩ := linspace_unit n k hn hk
    rw [← e, ← clip_eq _ (by linarith)]
    exact hsv_spec _ _ _ p0
  · obtain ⟨e, p0, p1⟩ := linspace_unit n k hn hk
    rw [← e, ← clip_eq _ (by linarith)]
    exact clip_unit _

/-- number of colours of the map `Seroussi` for `n` slices -/
def seroussiCount (n : ℕ) : ℕ := 7 * n / 10 - 1

theorem floor_seven (n : ℕ) : (⌊(7 / 10 : ℚ) * (n : ℚ)⌋).toNat = 7 * n / 10 := by
  have : ⌊(7 / 10 : ℚ) * (n : ℚ)⌋ = ((7 * n / 10 : ℕ) : ℤ) := by
    rw [Int.floor_eq_iff]
    have h : 7 * n = 10 * (7 * n / 10) + 7 * n % 10 := by omega
    have h' : (7 * (n : ℚ)) = 10 * ((7 * n / 10 : ℕ) : ℚ) + ((7 * n % 10 : ℕ) : ℚ) := by exact_mod_cast h
    have h2 : ((7 * n % 10 : ℕ) : ℚ) < 10 := by exact_mod_cast Nat.mod_lt _ (by norm_num)
    have h3 : (0 : ℚ) ≤ ((7 * n % 10 : ℕ) : ℚ) := by positivity
    refine ⟨?_, ?_⟩
    · rw [Int.cast_natCast]; linarith
    · rw [Int.cast_natCast]; linarith
  rw [this, Int.toNat_natCast]

theorem seroussi_length (n : ℕ) : (seroussi n).length = seroussiCount n := by
  unfold seroussi seroussiCount
  simp only [floor_seven, List.length_map, List.length_drop, List.length_take, List.length_reverse, List.length_range]
  rw [min_eq_left (by omega)]

theorem seroussi_get (n k : ℕ) (hn : 2 ≤ n) (hk : k < seroussiCount n) :
    (seroussi n)[k]? = some (hsvToRgb (((n - 2 - k : ℕ) : ℚ) / ((n : ℚ) - 1)) (clip (1 / 10 + ((n - 2 - k : ℕ) : ℚ) / ((n : ℚ) - 1))) 1) := by
  unfold seroussiCount at hk
  have hn1 : (0 : ℚ) < (n : ℚ) - 1 := by have : (2 : ℚ) ≤ n := by exact_mod_cast hn
                                         linarith
  unfold seroussi
  simp only [floor_seven, List.getElem?_map, List.getElem?_drop]
  rw [List.getElem?_take_of_lt (by omega), List.getElem?_reverse (by simp; omega)]
  simp only [List.length_map, List.length_range]
  rw [List.getElem?_map, List.getElem?_range (by omega)]
  simp only [Option.map_some, Option.some.injEq]
  rw [show n - 1 - (1 + k) = n - 2 - k by omega]
  obtain ⟨e, p0, p1⟩ := linspace_unit n (n - 2 - k) hn (by omega)
  have hlt : linspace 0 1 n (n - 2 - k) < 1 := by
    rw [e, div_lt_one hn1]
    have : n - 2 - k + 1 < n := by omega
    have : ((n - 2 - k : ℕ) : ℚ) + 1 < n := by exact_mod_cast this
    linarith
  rw [hsv_round_trip _ 1 1 p0 hlt (by norm_num) (by norm_num)]
  simp only [e]

/-- C115: the map `Seroussi` of `n ≥ 5` slices has `⌊0.7·n⌋ − 1` colours: hues `(n − 2 − k)/(n − 1)` in decreasing order from just below 1 (the
first slice of the reversed wheel is left out) to about 0.3, of saturation 0.1 more than the hue, at most 1. -/
theorem custom_seroussi (n : ℕ) (hn : 5 ≤ n) (name : List Char) (hname : IsName name "Seroussi") :
    ∃ l, custom n name = .ok l ∧ IsMap l (seroussiCount n) (fun k => ((n - 2 - k : ℕ) : ℚ) / ((n : ℚ) - 1))
      (fun k => min (1 / 10 + ((n - 2 - k : ℕ) : ℚ) / ((n : ℚ) - 1)) 1) := by
  unfold custom
  rw [show capitalize name = "Seroussi".toList from hname]
  rw [if_neg (by decide), if_pos rfl, if_neg (by omega : ¬ (n : ℤ) < 0), Int.toNat_natCast]
  have hn1 : (0 : ℚ) < (n : ℚ) - 1 := by have : (5 : ℚ) ≤ n := by exact_mod_cast hn
                                         linarith
  have hp : ∀ k : ℕ, 0 ≤ ((n - 2 - k : ℕ) : ℚ) / ((n : ℚ) - 1) := fun k => by positivity
  refine isMap_of _ _ (by unfold seroussiCount; omega) (seroussi_length n) _ _ (fun k hk => ?_) (fun k _ => ?_)
  · refine ⟨_, seroussi_get n k (by omega) hk, ?_⟩
    have := hp k
    rw [← clip_eq _ (by linarith)]
    exact hsv_spec _ _ _ this
  · have := hp k
    rw [← clip_eq _ (by linarith)]
    exact clip_unit _

/-- C115 (negative): which numbers of slices fail: one slice is a `ZeroDivisionError` (for `Seroussi` three or four), negative numbers a
`ValueError`; zero slices (for `Seroussi` up to two) give a map without colours. -/
theorem custom_small : (∀ name, IsName name "Joughin" ∨ IsName name "Rignot" →
      custom 1 name = .error .zeroDivision ∧ custom 0 name = .ok []) ∧
    (∀ name, IsName name "Seroussi" → custom 3 name = .error .zeroDivision ∧ custom 4 name = .error .zeroDivision ∧
      custom 0 name = .ok [] ∧ custom 1 name = .ok [] ∧ custom 2 name = .ok []) ∧
    (∀ (n : ℤ) (name : List Char), n < 0 → custom n name = .error .value) := by
  refine ⟨?_, ?_, ?_⟩
  · rintro name (h | h) <;> unfold custom <;> rw [show capitalize name = _ from h] <;> exact ⟨rfl, rfl⟩
  · intro name h
    have key : ∀ n : ℕ, custom n name = nodes (seroussi n) := by
      intro n
      unfold custom
      rw [show capitalize name = _ from h, if_neg (by decide), if_pos rfl, if_neg (by omega : ¬ (n : ℤ) < 0), Int.toNat_natCast]
    have one : ∀ n : ℕ, seroussiCount n = 1 → nodes (seroussi n) = .error .zeroDivision := by
      intro n hn; unfold nodes; rw [if_pos (by rw [seroussi_length, hn])]
    have zero : ∀ n : ℕ, seroussiCount n = 0 → nodes (seroussi n) = .ok [] := by
      intro n hn
      have : seroussi n = [] := List.eq_nil_of_length_eq_zero (by rw [seroussi_length, hn])
      rw [this]; rfl
    refine ⟨?_, ?_, ?_, ?_, ?_⟩
    · rw [← one 3 rfl, ← key 3]; rfl
    · rw [← one 4 rfl, ← key 4]; rfl
    · rw [← zero 0 rfl, ← key 0]; rfl
    · rw [← zero 1 rfl, ← key 1]; rfl
    · rw [← zero 2 rfl, ← key 2]; rfl
  · intro n name hn
    unfold custom
    simp only [if_pos hn]
    split_ifs <;> rfl

/-- C115: any other name is a `ValueError`. -/
theorem custom_unknown (n : ℤ) (name : List Char) (h1 : ¬ IsName name "Joughin") (h2 : ¬ IsName name "Seroussi")
    (h3 : ¬ IsName name "Rignot") : custom n name = .error .value := by
  unfold custom
  simp only [show ¬ capitalize name = "Joughin".toList from h1, show ¬ capitalize name = "Seroussi".toList from h2,
    show ¬ capitalize name = "Rignot".toList from h3, if_false]

theorem toLower_idem (c : Char) (h : c.toNat < 128) : c.toLower.toLower = c.toLower ∧ c.toLower.toUpper = c.toUpper ∧
    c.toUpper.toUpper = c.toUpper := by
  have key : ∀ k, k < 128 → (Char.ofNat k).toLower.toLower = (Char.ofNat k).toLower ∧
      (Char.ofNat k).toLower.toUpper = (Char.ofNat k).toUpper ∧ (Char.ofNat k).toUpper.toUpper = (Char.ofNat k).toUpper := by decide
  have := key c.toNat h
  rwa [Char.ofNat_toNat] at this

/-- C115: names that differ in the case of letters only are the same map. -/
theorem custom_case (n : ℤ) (a b : List Char) (ha : ∀ c ∈ a, c.toNat < 128) (hb : ∀ c ∈ b, c.toNat < 128)
    (h : a.map Char.toLower = b.map Char.toLower) : custom n a = custom n b := by
  have : capitalize a = capitalize b := by
    cases a with
    | nil => cases b with
      | nil => rfl
      | cons d ds => simp at h
    | cons c cs => cases b with
      | nil => simp at h
      | cons d ds =>
        simp only [List.map_cons, List.cons.injEq] at h
        simp only [capitalize]
        rw [h.2, ← (toLower_idem c (ha c (by simp))).2.1, h.1, (toLower_idem d (hb d (by simp))).2.1]
  unfold custom
  rw [this]

example : IsName "joughin".toList "Joughin" ∧ IsName "RIGNOT".toList "Rignot" ∧ IsName "sErOuSsI".toList "Seroussi" := by
  unfold IsName; decide +kernel
example : (custom 3 "rignot".toList).toOption = some [(0, (1, 9 / 10, 9 / 10)), (1 / 2, (2 / 5, 1, 1)), (1, (1, 0, 0))] := by decide +kernel
example : (custom 5 "seroussi".toList).toOption = some [(0, (23 / 40, 3 / 20, 1)), (1, (2 / 5, 1, 1))] := by decide +kernel

end Verif.Colours
