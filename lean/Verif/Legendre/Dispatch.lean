import Verif.Legendre.DispatchModel
import Verif.Legendre.Props

/-!
# Property C118: the dispatcher `associated_legendre`
-/
namespace Verif.Legendre

/-- the three names that work -/
def methods : List (List Char) := ["colombo".toList, "holmes".toList, "mohlenkamp".toList]

/-- C118: a name is refused with `ValueError` exactly when, in lower case, it is none of the three -/
theorem dispatch_refuses (eps scalef : ℝ) (method : List Char) (LMAX : ℕ) (MMAX : Option ℕ) (x : ℝ) :
    associatedLegendre eps scalef method LMAX MMAX x = .error .value ↔
      method.map Char.toLower ∉ methods := by
  unfold associatedLegendre methods
  simp only [List.mem_cons, List.not_mem_nil, or_false, not_or]
  by_cases h1 : method.map Char.toLower = "colombo".toList
  · rw [if_pos h1]
    rcases h : colombo eps LMAX x with _ | s
    · simp [h1]
    · simp [h1]
  rw [if_neg h1]
  by_cases h2 : method.map Char.toLower = "holmes".toList
  · rw [if_pos h2]
    rcases h : holmes eps scalef LMAX x with _ | s
    · simp [h2]
    · simp [h2]
  rw [if_neg h2]
  by_cases h3 : method.map Char.toLower = "mohlenkamp".toList
  · rw [if_pos h3]
    simp [h3]
  rw [if_neg h3]
  simp only [true_iff]
  exact ⟨h1, h2, h3⟩

/-- C118: the spelling the documentation gives for the first method is refused -/
theorem dispatch_documented_name (eps scalef : ℝ) (LMAX : ℕ) (MMAX : Option ℕ) (x : ℝ) :
    associatedLegendre eps scalef "columbo".toList LMAX MMAX x = .error .value :=
  (dispatch_refuses _ _ _ _ _ _).2 (by decide)

/-- C118: capitals do not matter -/
theorem dispatch_case (eps scalef : ℝ) (a b : List Char) (h : a.map Char.toLower = b.map Char.toLower)
    (LMAX : ℕ) (MMAX : Option ℕ) (x : ℝ) :
    associatedLegendre eps scalef a LMAX MMAX x = associatedLegendre eps scalef b LMAX MMAX x := by
  unfold associatedLegendre
  rw [h]

/-- C118: for every accepted name, maximum degree from 2, maximum order and colatitude strictly
between the poles the call returns; every entry of the first array is the fully normalised associated
Legendre function, and every entry of the second up to the maximum order is its derivative with
respect to colatitude.  The arrays have `LMAX+1` degrees and the orders to `MMAX`, with two
exceptions of the Mohlenkamp routine: its first array is not limited to `LMAX` orders and its second
is not cut at `MMAX` -/
theorem dispatch_values (eps scalef : ℝ) (hs : scalef ≠ 0) (method : List Char)
    (hm : method.map Char.toLower ∈ methods) (LMAX : ℕ) (hL : 2 ≤ LMAX) (MMAX : Option ℕ) (th : ℝ)
    (h0 : 0 < th) (hp : th < Real.pi) :
    ∃ t, associatedLegendre eps scalef method LMAX MMAX (Real.cos th) = .ok t ∧
      t.degrees = LMAX + 1 ∧
      (t.pOrders = if method.map Char.toLower = "mohlenkamp".toList then MMAX.getD LMAX + 1
        else min (MMAX.getD LMAX) LMAX + 1) ∧
      (t.dOrders = if method.map Char.toLower = "mohlenkamp".toList then LMAX + 1
        else min (MMAX.getD LMAX) LMAX + 1) ∧
      (∀ l m, l < t.degrees → m < t.pOrders → t.p l m = Plm l m (Real.cos th) (Real.sin th)) ∧
      (∀ l m, l < t.degrees → m ≤ MMAX.getD LMAX →
        HasDerivAt (fun y => Plm l m (Real.cos y) (Real.sin y)) (t.d l m) th) := by
  have hsin : 0 < Real.sin th := Real.sin_pos_of_pos_of_lt_pi h0 hp
  have hx : Real.cos th ^ 2 < 1 := by nlinarith [Real.sin_sq_add_cos_sq th]
  have hsq : ∀ y, 0 < y → y < Real.pi → Real.sqrt (1 - Real.cos y ^ 2) = Real.sin y := by
    intro y hy hy'
    rw [← Real.sin_sq, Real.sqrt_sq (Real.sin_pos_of_pos_of_lt_pi hy hy').le]
  obtain ⟨c, h, hc, hh, ha⟩ := algorithms_agree eps scalef hs LMAX (MMAX.getD LMAX) hL (Real.cos th)
  obtain ⟨c', hc', hv⟩ := colombo_correct eps LMAX (by omega) (Real.cos th) hx
  rw [hc] at hc'
  obtain rfl : c = c' := Option.some.inj hc'
  rw [hsq th h0 hp] at hv
  have hd : ∀ l ≤ LMAX, ∀ m, HasDerivAt (fun y => Plm l m (Real.cos y) (Real.sin y)) (c.d l m) th := by
    intro l hl m
    obtain ⟨s, hs', hd⟩ := colombo_derivative eps LMAX (by omega) th h0 hp l m hl
    rw [hc] at hs'
    obtain rfl : c = s := Option.some.inj hs'
    refine hd.congr_of_eventuallyEq ?_
    filter_upwards [Ioo_mem_nhds h0 hp] with y hy
    have hy1 : Real.cos y ^ 2 < 1 := by
      nlinarith [Real.sin_sq_add_cos_sq y, Real.sin_pos_of_pos_of_lt_pi hy.1 hy.2]
    obtain ⟨s', hs'', hv'⟩ := colombo_correct eps LMAX (by omega) (Real.cos y) hy1
    rw [hs'']
    simp only [Option.map_some, Option.getD_some]
    rw [hv' l hl m, hsq y hy.1 hy.2]
  unfold associatedLegendre
  unfold methods at hm
  simp only [List.mem_cons, List.not_mem_nil, or_false] at hm
  rcases hm with e | e | e
  · rw [if_pos e, hc, if_neg (by rw [e]; decide), if_neg (by rw [e]; decide)]
    refine ⟨_, rfl, rfl, by simp only [cutOrders]; omega, by simp only [cutOrders]; omega, ?_, ?_⟩
    · intro l m hl _
      exact hv l (by simp only [cutOrders] at hl; omega) m
    · intro l m hl _
      exact hd l (by simp only [cutOrders] at hl; omega) m
  · rw [if_neg (by rw [e]; decide), if_pos e, hh, if_neg (by rw [e]; decide), if_neg (by rw [e]; decide)]
    refine ⟨_, rfl, rfl, by simp only [cutOrders]; omega, by simp only [cutOrders]; omega, ?_, ?_⟩
    · intro l m hl _
      simp only [cutOrders] at hl ⊢
      rw [(ha l m).1]
      exact hv l (by omega) m
    · intro l m hl _
      simp only [cutOrders] at hl ⊢
      rw [(ha l m).2.1]
      exact hd l (by omega) m
  · rw [if_neg (by rw [e]; decide), if_neg (by rw [e]; decide), if_pos e, if_pos e, if_pos e]
    refine ⟨_, rfl, rfl, rfl, rfl, ?_, ?_⟩
    · intro l m hl hm'
      simp only at hl hm' ⊢
      rw [((ha l m).2.2 (by omega)).1]
      exact hv l (by omega) m
    · intro l m hl hm'
      simp only at hl ⊢
      rw [((ha l m).2.2 hm').2]
      exact hd l (by omega) m

/-- non-vacuity: a name in capitals, degree 60, orders to 40, colatitude 1 -/
example : ∃ t, associatedLegendre (1 / 2 ^ 52) (1 / 10 ^ 280) "Holmes".toList 60 (some 40) (Real.cos 1) = .ok t ∧
    t.pOrders = 41 ∧ t.p 50 30 = Plm 50 30 (Real.cos 1) (Real.sin 1) := by
  obtain ⟨t, e, h1, h2, _, h4, _⟩ := dispatch_values (1 / 2 ^ 52) (1 / 10 ^ 280) (by positivity)
    "Holmes".toList (by decide) 60 (by norm_num) (some 40) 1 (by norm_num) (by linarith [Real.two_le_pi])
  have h2' : t.pOrders = 41 := by rw [h2]; decide
  exact ⟨t, e, h2', h4 50 30 (by omega) (by omega)⟩

/-- C118: in the Mohlenkamp routine the orders of the derivative array beyond the maximum order are
present and zero, whatever the true derivative -/
theorem dispatch_mohlenkamp_beyond (eps scalef : ℝ) (LMAX M : ℕ) (x : ℝ) :
    ∃ t, associatedLegendre eps scalef "mohlenkamp".toList LMAX (some M) x = .ok t ∧ t.dOrders = LMAX + 1 ∧
      ∀ l m, M < m → t.d l m = 0 := by
  unfold associatedLegendre
  rw [if_neg (by decide), if_neg (by decide), if_pos (by decide)]
  refine ⟨_, rfl, rfl, fun l m h => ?_⟩
  simp only [Option.getD_some]
  rw [(mohlenkamp_closed eps LMAX M x l m).2, if_neg (by omega)]

/-- C118: below degree 2 the default method does not return, the first needs degree 1 and the third
none -/
theorem dispatch_low_degree (eps scalef : ℝ) (MMAX : Option ℕ) (x : ℝ) :
    associatedLegendre eps scalef "holmes".toList 1 MMAX x = .error .inside ∧
    (∃ t, associatedLegendre eps scalef "colombo".toList 1 MMAX x = .ok t) ∧
    associatedLegendre eps scalef "colombo".toList 0 MMAX x = .error .inside ∧
    ∃ t, associatedLegendre eps scalef "mohlenkamp".toList 0 MMAX x = .ok t := by
  obtain ⟨s, hs, _⟩ := colombo_closed eps 1 le_rfl x
  refine ⟨?_, ⟨cutOrders 1 (MMAX.getD 1) s, ?_⟩, ?_, ?_⟩
  · unfold associatedLegendre
    rw [if_neg (by decide), if_pos (by decide), holmes_low_degree eps scalef 1 (by norm_num)]
  · unfold associatedLegendre
    rw [if_pos (by decide), hs]
  · unfold associatedLegendre
    rw [if_pos (by decide), colombo_LMAX_zero]
  · unfold associatedLegendre
    rw [if_neg (by decide), if_neg (by decide), if_pos (by decide)]
    exact ⟨_, rfl⟩

end Verif.Legendre
