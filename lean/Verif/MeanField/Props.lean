import Verif.MeanField.Spec
import Verif.Harmonics.Series
import Verif.HarmIO.Data
import Verif.HarmIO.Ascii
import Verif.Maps.Props

/-!
# C93: theorems on the mean field
-/
namespace Verif.MeanField
open Verif.Harmonics Verif.Maps
open Verif (lmPairs mem_lmPairs)
open Verif.HarmIO (RoundedSig)

section
variable {K : Type} [Field K]

theorem range_sum {M : Type} [AddCommMonoid M] (n : ℕ) (f : ℕ → M) : ((List.range n).map f).sum = ∑ t ∈ Finset.range n, f t := by
  induction n with
  | zero => rfl
  | succ n ih => rw [List.range_succ, List.map_append, List.sum_append, ih, Finset.sum_range_succ]; simp

/-- C93: the mean field has the means of the coefficients, its errors are the roots of the mean squares of the errors, and its
date is the mean date -/
theorem mean_coefficients (sqrt : K → K) (g : Months K) (L M n : ℕ) (hn : 0 < n) (G : g.Ok L M n) :
    Has (meanField sqrt g).h L M (g.meanC n) (g.meanS n) ∧
      (∀ l m, (meanField sqrt g).eclm l m = sqrt (average n fun t => g.eclm l m t ^ 2) ∧
        (meanField sqrt g).eslm l m = sqrt (average n fun t => g.eslm l m t ^ 2)) ∧
      (meanField sqrt g).h.time = [(meanField sqrt g).time] ∧
      (meanField sqrt g).time * n = g.field.time.sum ∧ (meanField sqrt g).month * n = ((g.field.month.sum : ℤ) : ℚ) := by
  have hnt : g.nt = n := by unfold Months.nt; rw [G.nt]; rfl
  have ht : g.field.time.length = n := by rw [G.wf.1, G.nt]; rfl
  have hmo : g.field.month.length = n := by rw [G.wf.2, G.nt]; rfl
  have hn' : (n : ℚ) ≠ 0 := by positivity
  refine ⟨⟨G.lmax, G.mmax, rfl, ?_⟩, ?_, rfl, ?_, ?_⟩
  · intro l m hl hm
    have := mean_value g.field false (List.range n) l m (by rw [G.lmax]; exact hl) (by rw [G.mmax]; exact hm)
    simp only [range_sum, List.length_range] at this
    unfold meanField
    simp only [hnt]
    exact this
  · intro l m
    unfold meanField
    simp only [hnt, rmsOf, range_sum, average, true_and]
  · unfold meanField npMean
    simp only [ht]
    field_simp
  · unfold meanField npMean
    simp only [List.length_map, hmo]
    rw [div_mul_cancel₀ _ hn']
    generalize g.field.month = xs
    induction xs with
    | nil => simp
    | cons x xs ih => rw [List.map_cons, List.sum_cons, List.sum_cons, ih]; push_cast; ring

end

/-- C93: the error of the mean is at least the smallest and at most the largest of the errors of the months, and a common error
is kept -/
theorem error_between (g : Months ℝ) (L M n : ℕ) (hn : 0 < n) (G : g.Ok L M n) (l m : ℕ) (a b : ℝ) (ha : 0 ≤ a)
    (h : ∀ t < n, a ≤ g.eclm l m t ∧ g.eclm l m t ≤ b) :
    a ≤ (meanField Real.sqrt g).eclm l m ∧ (meanField Real.sqrt g).eclm l m ≤ b := by
  rw [((mean_coefficients Real.sqrt g L M n hn G).2.1 l m).1]
  have hn' : (0 : ℝ) < n := by exact_mod_cast hn
  have hb : 0 ≤ b := ha.trans ((h 0 hn).1.trans (h 0 hn).2)
  constructor
  · apply Real.le_sqrt_of_sq_le
    unfold average
    rw [le_div_iff₀ hn', mul_comm]
    have : ∑ _t ∈ Finset.range n, a ^ 2 ≤ ∑ t ∈ Finset.range n, g.eclm l m t ^ 2 :=
      Finset.sum_le_sum fun t ht => pow_le_pow_left₀ ha (h t (Finset.mem_range.1 ht)).1 2
    simpa using this
  · rw [Real.sqrt_le_left hb]
    unfold average
    rw [div_le_iff₀ hn', mul_comm]
    have : ∑ t ∈ Finset.range n, g.eclm l m t ^ 2 ≤ ∑ _t ∈ Finset.range n, b ^ 2 :=
      Finset.sum_le_sum fun t ht => pow_le_pow_left₀ (ha.trans (h t (Finset.mem_range.1 ht)).1) (h t (Finset.mem_range.1 ht)).2 2
    simpa using this

/-! ## Files with variables -/

section
variable {K : Type} [Field K]
open HarmIO.Data

/-- a field written with its date can be read without -/
theorem read_undated (hdf5 : Bool) (w : WOpts) (hu : Usual w) (hd : w.date = true) (old : Option (File K)) (o : Obj K)
    (hm : o.h.mmax ≤ o.h.lmax) (hwf : o.h.WF) (hn : o.h.nt = none) (hc : w.clobber = true ∨ old = none) :
    ∃ r out, write hdf5 w old o = .ok r ∧ read false r.2 = .ok out ∧ out.h.lmax = o.h.lmax ∧ out.h.mmax = o.h.mmax ∧
      out.h.nt = none ∧ out.h.time = [] ∧ out.h.month = [] ∧
      ∀ l m, l ≤ o.h.lmax → m ≤ o.h.mmax → out.h.clm l m 0 = (if m ≤ l then o.h.clm l m 0 else 0) ∧
        out.h.slm l m 0 = (if m ≤ l then o.h.slm l m 0 else 0) := by
  have hf : Fits w.date o.h := ⟨fun _ => hwf, fun h => by rw [hd] at h; simp at h⟩
  obtain ⟨file, k1, -, hv⟩ := write_spec hdf5 w hu old o hm hf hc
  rw [hd] at hv
  let h' : Harm K := { o.h with nt := some 1, time := [], month := [] }
  obtain ⟨f, g, e1, e2, e3, e4, e5, e6, e7, e8⟩ := expand_flatten h' (by simp only [h']; omega)
  rw [flatten_spec h' (by simp only [h']; omega)] at e1
  obtain rfl := Except.ok.inj e1
  have hrows : flatRows h' = flatRows o.h := rfl
  rw [hrows] at e2
  have hl := hv (.l, "l") (by simp [stdUsed])
  have hmm := hv (.m, "m") (by simp [stdUsed])
  have hcl := hv (.clm, "clm") (by simp [stdUsed])
  have hsl := hv (.slm, "slm") (by simp [stdUsed])
  simp only [value, hn, Option.getD_none, if_true] at hl hmm hcl hsl
  have m1 : (flatRows o.h).map Row.l = (lmPairs o.h.lmax o.h.mmax).map Prod.fst := by simp [flatRows]
  have m2 : (flatRows o.h).map Row.m = (lmPairs o.h.lmax o.h.mmax).map Prod.snd := by simp [flatRows]
  obtain ⟨n1, n2⟩ := npMax_lm o.h.lmax o.h.mmax hm
  have hex : expandE (⟨o.h.lmax, o.h.mmax, some 1, flatRows o.h, [], []⟩ : Flat K) = .ok g := by
    unfold expandE
    rw [e2]
  have hg5 : g.nt = some 1 := e5
  refine ⟨_, { h := (squeezeN { g with month := Time.adjustMonths g.month }).1
               ndim := (squeezeN { g with month := Time.adjustMonths g.month }).2
               attrs := (fields false).filterMap (readAttrs file), root := file.root }, k1, ?_, ?_, ?_, ?_, ?_, ?_, ?_⟩
  · unfold HarmIO.Data.read
    simp only [getVar, hl, hmm, hcl, hsl, asDegs, asCoefs, bind, Except.bind, getDates, Bool.false_eq_true, if_false]
    rw [zipRows_rows, m1, m2, n1, n2]
    simp only [ne_eq, not_true_eq_false, if_false, hex, pure, Except.pure]
  all_goals simp only [squeezeN, hg5]
  · exact e3
  · exact e4
  · exact e6
  · rw [e7]; rfl
  · intro l m h1 h2
    exact e8 l m 0 h1 h2

/-- C93: the mean file in netCDF4 or HDF5 is always written, replacing an older one, and a program that reads it as static field
finds exactly the means of the coefficients -/
theorem data_file (hdf5 : Bool) (root : SpatialIO.Data.Attrs) (old : Option (File K)) (sqrt : K → K) (g : Months K) (L M n : ℕ)
    (hn : 0 < n) (G : g.Ok L M n) :
    ∃ f h, writeData hdf5 root old (meanField sqrt g) = .ok f ∧ readData f = .ok h ∧ Has h L M (g.meanC n) (g.meanS n) := by
  obtain ⟨H, -, -, -⟩ := mean_coefficients sqrt g L M n hn G
  obtain ⟨r, out, w1, w2, w3, w4, w5, -, -, w8⟩ := read_undated hdf5 {} ⟨rfl, rfl, rfl⟩ rfl old ⟨(meanField sqrt g).h, root⟩
    (by simp only [H.lmax, H.mmax]; exact G.le) ⟨rfl, rfl⟩ rfl (Or.inl rfl)
  refine ⟨r.2, out.h, ?_, ?_, ⟨w3.trans H.lmax, w4.trans H.mmax, w5, ?_⟩⟩
  · unfold writeData; rw [w1]
  · unfold readData; rw [w2]
  · intro l m hl hm
    obtain ⟨q1, q2⟩ := w8 l m (by simp only [H.lmax]; exact hl) (by simp only [H.mmax]; exact hm)
    obtain ⟨c1, c2⟩ := H.coefs l m hl hm
    simp only at q1 q2
    rw [q1, q2, c1, c2]
    by_cases h : m ≤ l <;> simp [h]

end

/-- C93: maps of months made with the mean file of these months are the maps made without a mean file -/
theorem own_mean (hdf5 : Bool) (root : SpatialIO.Data.Attrs) (old : Option (HarmIO.Data.File ℝ)) (eps scalef cutoff : ℝ)
    (hsc : scalef ≠ 0) (o : Opts) (hL : 2 ≤ o.LMAX) (hM : o.order ≤ o.LMAX) (grace : Harm ℝ) (n : ℕ) (hn : 0 < n)
    (D : Maps.Data o grace n) (hz : ∀ l m t, l < m → grace.clm l m t = 0 ∧ grace.slm l m t = 0)
    (eclm eslm : ℕ → ℕ → ℕ → ℝ) (gia : Harm ℝ) (removed : List (Harm ℝ)) (C : ∀ h ∈ removed, Covers grace h)
    (ho : ∀ oc, o.ocean = some oc → 2 ≤ n ∧ oc.lmax = o.LMAX ∧ oc.mmax = o.order)
    (dfactor wt : ℕ → ℝ) (hw : Maps.weights cutoff o.RAD o.LMAX = some wt) (lons lats : List ℚ) :
    ∃ f h, writeData hdf5 root old (meanField Real.sqrt ⟨grace, eclm, eslm⟩) = .ok f ∧ readData f = .ok h ∧
      spatialMaps eps scalef cutoff o grace (some h) gia (removed.map .index) dfactor lons lats =
        spatialMaps eps scalef cutoff o grace none gia (removed.map .index) dfactor lons lats := by
  have G : (⟨grace, eclm, eslm⟩ : Months ℝ).Ok o.LMAX o.order n := ⟨D.lmax, D.mmax, D.nt, D.wf, hM⟩
  obtain ⟨f, h, f1, f2, H⟩ := data_file hdf5 root old Real.sqrt ⟨grace, eclm, eslm⟩ o.LMAX o.order n hn G
  refine ⟨f, h, f1, f2, ?_⟩
  obtain ⟨m1, e1, l1, v1⟩ := spatialMaps_value eps scalef cutoff hsc o hL hM grace n D none (by simp) gia removed C ho
    dfactor wt hw lons lats
  obtain ⟨m2, e2, l2, v2⟩ := spatialMaps_value eps scalef cutoff hsc o hL hM grace n D (some h)
    (by intro f hf; cases hf; exact H.single) gia removed C ho dfactor wt hw lons lats
  have hst : ∀ b l m, static b grace n (some h) l m = static b grace n none l m := by
    intro b l m
    unfold static coef
    simp only [H.lmax, H.mmax, D.lmax, D.mmax]
    by_cases hlm : l ≤ o.LMAX ∧ m ≤ o.order
    · simp only [hlm, and_self, if_true]
      obtain ⟨c1, c2⟩ := H.coefs l m hlm.1 hlm.2
      rw [c1, c2]
      by_cases hml : m ≤ l
      · simp only [hml, if_true, Months.meanC, Months.meanS, average]
        cases b <;> rfl
      · simp only [hml, if_false]
        simp [hz l m _ (by omega)]
    · simp [hlm]
  have hsig : ∀ b i, signal b o grace n (some h) gia removed i = signal b o grace n none gia removed i := by
    intro b i
    funext l m
    unfold signal
    simp only [hst]
  simp only [hsig] at v2
  rw [e1, e2]
  congr 1
  apply List.ext_getElem?
  intro i
  by_cases hi : i < n
  · obtain ⟨M1, a1, a2, a3, a4, a5⟩ := v1 i hi
    obtain ⟨M2, b1, b2, b3, b4, b5⟩ := v2 i hi
    rw [a1, b1]
    congr 1
    have hdata : M2.data = M1.data := by
      apply List.ext_getElem?
      intro j
      by_cases hj : j < lats.length
      · obtain ⟨r1, p1, p2, p3⟩ := a5 j _ (List.getElem?_eq_getElem hj)
        obtain ⟨r2, q1, q2, q3⟩ := b5 j _ (List.getElem?_eq_getElem hj)
        rw [p1, q1]
        congr 1
        apply List.ext_getElem?
        intro k
        by_cases hk : k < lons.length
        · rw [p3 k _ (List.getElem?_eq_getElem hk), q3 k _ (List.getElem?_eq_getElem hk)]
        · rw [List.getElem?_eq_none (by omega), List.getElem?_eq_none (by omega)]
      · rw [List.getElem?_eq_none (by omega), List.getElem?_eq_none (by omega)]
    cases M1; cases M2
    simp only at a2 a3 b2 b3 hdata
    subst a2 a3 b2 b3 hdata
    rfl
  · rw [List.getElem?_eq_none (by omega), List.getElem?_eq_none (by omega)]

end Verif.MeanField
