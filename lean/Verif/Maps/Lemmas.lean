import Verif.Maps.Spec
import Verif.Harmonics.Arith
import Verif.Harmonics.Series
import Verif.Synthesis.Summation
import Verif.Destripe.Props

/-!
# Lemmas about the stages of the programs
-/
namespace Verif.Maps
open Verif.Harmonics Verif.Synthesis Verif.Legendre Verif.Destripe

/-! ## the filter only reads the triangle of its order -/

theorem rhs_congr (n : ℕ) (y y' : ℕ → ℝ) (K num : ℕ) (hK : n ≤ K) (hK2 : K + n < num) (h : ∀ i < num, y i = y' i) :
    rhs n y K = rhs n y' K := by
  funext a
  rw [rhs_apply, rhs_apply]
  refine Finset.sum_congr rfl fun i hi => ?_
  have := Finset.mem_range.1 hi
  rw [h _ (by omega)]

theorem smoothSeq_congr (n num : ℕ) (N : Bool) (y y' : ℕ → ℝ) (h : ∀ i < num, y i = y' i) (i : ℕ) (hi : i < num) :
    smoothSeq n num N y i = smoothSeq n num N y' i := by
  by_cases hn : num < 2 * n + 1
  · unfold smoothSeq
    rw [if_pos hn, if_pos hn]
    simp only [hi, if_true, h i hi]
  · rw [smoothSeq_eq n num N y (by omega) i hi, smoothSeq_eq n num N y' (by omega) i hi]
    unfold quadAt beta
    rw [rhs_congr n y y' _ num (by omega) (by omega) h]

theorem destripe_congr (R N : Bool) (L M : ℕ) (c c' : ℕ → ℕ → ℝ) (l m : ℕ) (h1 : m ≤ l) (h2 : l ≤ L)
    (h : ∀ k, m ≤ k → k ≤ L → c k m = c' k m) :
    destripeColumn R N L M c l m = destripeColumn R N L M c' l m := by
  unfold destripeColumn
  rw [h l h1 h2]
  split
  · split
    · congr 1
      have hf : first m (l % 2) ≤ l ∧ m ≤ first m (l % 2) ∧ first m (l % 2) % 2 = l % 2 := by
        unfold first; split_ifs <;> omega
      rw [smoothed_eq R N L c l m h1 h2, smoothed_eq R N L c' l m h1 h2]
      apply smoothSeq_congr
      · intro i hi
        rw [if_pos hi, if_pos hi]
        exact h _ (by omega) (by omega)
      · omega
    · rfl
  · rfl

/-! ## stages -/

/-- a coefficient of the arrays -/
def val (b : Bool) (h : Harm ℝ) (t l m : ℕ) : ℝ := if b then h.slm l m t else h.clm l m t

/-- an object holds the values `v` for its `n` dates -/
structure Holds (h : Harm ℝ) (L M n : ℕ) (time : List ℚ) (month : List ℤ) (v : Bool → ℕ → ℕ → ℕ → ℝ) : Prop where
  lmax : h.lmax = L
  mmax : h.mmax = M
  nt : h.nt = some n ∨ (h.nt = none ∧ n = 1)
  time : h.time = time
  month : h.month = month
  vals : ∀ b t l m, t < n → m ≤ l → l ≤ L → m ≤ M → val b h t l m = v b t l m

theorem coef_val (b : Bool) (h : Harm ℝ) (t l m : ℕ) :
    coef b h t l m = if l ≤ h.lmax ∧ m ≤ h.mmax then val b h t l m else 0 := rfl

theorem Holds.congr {h : Harm ℝ} {L M n : ℕ} {time : List ℚ} {month : List ℤ} {v w : Bool → ℕ → ℕ → ℕ → ℝ}
    (H : Holds h L M n time month v)
    (e : ∀ b t l m, t < n → m ≤ l → l ≤ L → m ≤ M → v b t l m = w b t l m) : Holds h L M n time month w :=
  ⟨H.lmax, H.mmax, H.nt, H.time, H.month, fun b t l m h1 h2 h3 h4 => (H.vals b t l m h1 h2 h3 h4).trans (e b t l m h1 h2 h3 h4)⟩

/-- subtracting or adding a field, value by value -/
theorem windowed_val (op : ℝ → ℝ → ℝ) (h0 : ∀ x, op x 0 = x) (a c : Harm ℝ) (hc : Compatible a c) :
    ∃ r, Harmonics.windowed op a c = .ok r ∧ r.lmax = a.lmax ∧ r.mmax = a.mmax ∧ r.nt = a.nt ∧ r.time = a.time ∧ r.month = a.month ∧
      ∀ b l m t, t < a.nt.getD 1 → l ≤ a.lmax → m ≤ a.mmax →
        val b r t l m = op (val b a t l m) (coef b c (partnerDate a c t) l m) := by
  obtain ⟨r, h1, h2, h3, h4, h5, h6, h7⟩ := windowed_spec op a c hc
  refine ⟨r, h1, h2, h3, h4, h5, h6, ?_⟩
  intro b l m t ht hl hm
  obtain ⟨e1, e2⟩ := h7 l m t ht
  rw [coef_val]
  unfold val
  cases b
  · simp only [Bool.false_eq_true, if_false, e1, hl, hm, true_and]
    by_cases h : l ≤ c.lmax ∧ m ≤ c.mmax
    · rw [if_pos h, if_pos h]
    · rw [if_neg h, if_neg h, h0]
  · simp only [if_true, e2, hl, hm, true_and]
    by_cases h : l ≤ c.lmax ∧ m ≤ c.mmax
    · rw [if_pos h, if_pos h]
    · rw [if_neg h, if_neg h, h0]

theorem list_sum_range (n : ℕ) (f : ℕ → ℝ) : ((List.range n).map f).sum = ∑ t ∈ Finset.range n, f t := by
  induction n with
  | zero => simp
  | succ n ih => rw [List.range_succ, List.map_append, List.sum_append, ih, Finset.sum_range_succ]; simp

theorem anomaly_holds (o : Opts) (grace : Harm ℝ) (n : ℕ) (H : Data o grace n) (mf : Option (Harm ℝ))
    (hm : ∀ f, mf = some f → f.nt = none) :
    ∃ r, anomaly grace mf = .ok r ∧ r.nt = some n ∧ Holds r o.LMAX o.order n grace.time grace.month
      (fun b t l m => coef b grace t l m - static b grace n mf l m) := by
  obtain ⟨h1, h2, h3, h4, -⟩ := H
  cases mf with
  | some f =>
    have hf := hm f rfl
    obtain ⟨r, e1, e2, e3, e4, e5, e6, e7⟩ := windowed_val (· - ·) (by simp) grace f ⟨h4, Or.inr (Or.inl hf)⟩
    refine ⟨r, ?_, e4.trans h3, e2.trans h1, e3.trans h2, Or.inl (e4.trans h3), e5, e6, ?_⟩
    · show lift (Harmonics.windowed _ grace f) = _
      rw [e1]; rfl
    · intro b t l m ht hml hl hmm
      rw [e7 b l m t (by rw [h3]; exact ht) (by omega) (by omega), coef_val b grace, if_pos ⟨by omega, by omega⟩]
      unfold partnerDate
      rw [if_neg (by rw [hf, h3]; simp)]
      rfl
  | none =>
    refine ⟨_, rfl, h3, h1, h2, Or.inl h3, rfl, rfl, ?_⟩
    intro b t l m ht hml hl hmm
    have e := mean_applied grace true (List.range (grace.nt.getD 1)) l m t (by omega) (by omega)
    have v := mean_value grace true (List.range (grace.nt.getD 1)) l m (by omega) (by omega)
    have hs : ∀ b, (∑ t ∈ Finset.range n, coef b grace t l m) = ∑ t ∈ Finset.range n, val b grace t l m := by
      intro b
      refine Finset.sum_congr rfl fun t _ => ?_
      rw [coef_val, if_pos ⟨by omega, by omega⟩]
    rw [coef_val, if_pos ⟨by omega, by omega⟩]
    simp only [h3, Option.getD_some, hml, true_and, if_true, list_sum_range, List.length_range] at e v ⊢
    simp only [static]
    rw [hs]
    unfold val
    cases b
    · simp only [Bool.false_eq_true, if_false]
      rw [e.1, v.1]
    · simp only [if_true]
      rw [e.2.1, v.2]

theorem filtered_holds (o : Opts) (hL : o.LMAX ≠ 0) (h : Harm ℝ) (n : ℕ) (time : List ℚ) (month : List ℤ)
    (v : Bool → ℕ → ℕ → ℕ → ℝ) (H : Holds h o.LMAX o.order n time month v) :
    ∃ r, filtered o h = .ok r ∧ r.nt = h.nt ∧ Holds r o.LMAX o.order n time month (fun b t => filt o (v b t)) := by
  unfold filtered filt
  cases o.DESTRIPE
  · exact ⟨h, rfl, rfl, H⟩
  · obtain ⟨h1, h2, h3, h4, h5, h6⟩ := H
    unfold destripeHarm
    simp only [if_true]
    rw [if_neg (by omega)]
    refine ⟨_, rfl, rfl, h1, h2, h3, h4, h5, ?_⟩
    intro b t l m ht hml hl hm
    have key : ∀ b, val b h t = fun l m => val b h t l m := fun _ => rfl
    unfold val
    cases b
    · simp only [Bool.false_eq_true, if_false, h1, h2]
      apply destripe_congr _ _ _ _ _ _ _ _ hml hl
      intro k hk1 hk2
      exact h6 false t k m ht hk1 hk2 hm
    · simp only [if_true, h1, h2]
      apply destripe_congr _ _ _ _ _ _ _ _ hml hl
      intro k hk1 hk2
      exact h6 true t k m ht hk1 hk2 hm

theorem redistribute_holds (L M : ℕ) (oc h : Harm ℝ) (n k : ℕ) (hk : h.nt = some k) (time : List ℚ) (month : List ℤ)
    (v : Bool → ℕ → ℕ → ℕ → ℝ) (H : Holds h L M n time month v) :
    ∃ r, redistribute L M oc h = .ok r ∧ r.nt = h.nt ∧ Holds r L M n time month
      (fun b t l m => v b t l m - v false t 0 0 / oc.clm 0 0 0 * val b oc 0 l m) := by
  obtain ⟨h1, h2, h3, h4, h5, h6⟩ := H
  unfold redistribute
  rw [hk]
  refine ⟨_, rfl, hk.symm ▸ hk, h1, h2, by rw [← hk]; exact h3, h4, h5, ?_⟩
  intro b t l m ht hml hl hm
  have hmem : (l, m) ∈ lmPairs L M := (mem_lmPairs L M l m).2 ⟨hml, hl, hm⟩
  have h00 := h6 false t 0 0 ht le_rfl (by omega) (by omega)
  have hv := h6 b t l m ht hml hl hm
  unfold val at h00 hv ⊢
  rw [← h00, ← hv]
  cases b
  · simp only [Bool.false_eq_true, if_false, updateLoop_apply _ (lmPairs_nodup L M), hmem, if_true]
  · simp only [Bool.false_eq_true, if_false, updateLoop_apply _ (lmPairs_nodup L M), hmem, if_true]

theorem sorted_ext (a b : List ℤ) (ha : a.Pairwise (· < ·)) (hb : b.Pairwise (· < ·)) (h : ∀ x, x ∈ a ↔ x ∈ b) : a = b := by
  have hp : a.Perm b := by
    rw [List.perm_ext_iff_of_nodup (ha.imp fun h => ne_of_lt h) (hb.imp fun h => ne_of_lt h)]
    exact h
  exact hp.eq_of_pairwise (fun x y _ _ h1 h2 => absurd (lt_trans h1 h2) (lt_irrefl _)) ha hb

/-- the selected months of a series which has all months of the data are those of the data, date by date -/
theorem subset_holds (grace h : Harm ℝ) (hg : grace.month.Pairwise (· < ·)) (C : Covers grace h) :
    ∃ r, subset h grace.month = .ok r ∧ r.lmax = h.lmax ∧ r.mmax = h.mmax ∧
      (r.nt = some grace.month.length ∨ (r.nt = none ∧ grace.month.length = 1)) ∧
      r.time.length = grace.month.length ∧ r.month = grace.month ∧
      ∀ b t l m, t < grace.month.length →
        val b r t l m = val b h (h.month.idxOf (grace.month.getD t 0)) l m := by
  obtain ⟨-, -, c3, c4⟩ := C
  have hn : h.month.Nodup := c3.imp fun h => ne_of_lt h
  have hq : grace.month.Nodup := hg.imp fun h => ne_of_lt h
  obtain ⟨r, is, e1, ⟨s1, s2, s3, s4, s5, s6⟩, e3, e4, e5⟩ := subset_spec h grace.month hn hq c4
  have hlen : is.length = grace.month.length := by
    have := e5.length_eq
    rw [s5, List.length_map] at this; exact this
  have hinc : r.month.Pairwise (· < ·) := by
    rw [s5, List.pairwise_map]
    refine List.Pairwise.imp_of_mem ?_ e3
    intro i j hi hj hij
    have h1 := ((e4 i).1 hi).1
    have h2 := ((e4 j).1 hj).1
    simp only [List.getD_eq_getElem?_getD, List.getElem?_eq_getElem h1, List.getElem?_eq_getElem h2, Option.getD_some]
    exact List.pairwise_iff_getElem.1 c3 i j h1 h2 hij
  have hmon : r.month = grace.month := sorted_ext _ _ hinc hg fun x => e5.mem_iff
  refine ⟨r, e1, s1, s2, by rw [← hlen]; exact s3, by rw [s4, List.length_map, hlen], hmon, ?_⟩
  intro b t l m ht
  have hi : is[t]? = some is[t] := List.getElem?_eq_getElem (by omega)
  have hidx : h.month.idxOf (grace.month.getD t 0) = is[t] := by
    have h1 := ((e4 is[t]).1 (List.getElem_mem _)).1
    have : grace.month.getD t 0 = h.month[is[t]] := by
      rw [← hmon, s5]
      simp [List.getD_eq_getElem?_getD, hi, List.getElem?_eq_getElem h1]
    rw [this]
    exact hn.idxOf_getElem _ _
  obtain ⟨q1, q2⟩ := s6 t _ hi l m
  rw [hidx]
  unfold val
  rw [q1, q2]

/-- one removed field -/
theorem removedField_holds (o : Opts) (hL : o.LMAX ≠ 0) (grace a h : Harm ℝ) (n : ℕ) (D : Data o grace n)
    (ha : a.month = grace.month) (C : Covers grace h)
    (ho : ∀ oc, o.ocean = some oc → 2 ≤ n ∧ oc.lmax = o.LMAX ∧ oc.mmax = o.order) :
    ∃ r, removedField o a (.index h) = .ok r ∧ ∃ time, time.length = n ∧ Holds r o.LMAX o.order n time grace.month
      (fun b t => filt o fun l m => compensated b o.ocean h (h.month.idxOf (grace.month.getD t 0)) l m) := by
  have hlen : grace.month.length = n := by rw [D.wf.2, D.nt]; rfl
  have hM : o.order ≠ 0 := by unfold Opts.order; split <;> omega
  obtain ⟨r, e1, e2, e3, e4, e5, e6, e7⟩ := subset_holds grace h D.months C
  rw [hlen] at e4 e5
  obtain ⟨t1, t2, t3, t4, t5, t6⟩ := truncate_spec r o.LMAX 0 o.order hM
  have HT : Holds (truncate r (some o.LMAX) 0 (some o.order)) o.LMAX o.order n r.time grace.month
      (fun b t l m => coef b h (h.month.idxOf (grace.month.getD t 0)) l m) := by
    refine ⟨t1, t2, by rw [t3]; exact e4, t4, t5.trans e6, ?_⟩
    intro b t l m ht hml hl hm
    obtain ⟨u1, u2⟩ := t6 l m t
    rw [coef_val, ← e2, ← e3, ← e7 b t l m (by omega)]
    unfold val
    cases b
    · simp only [Bool.false_eq_true, if_false, u1, Nat.zero_le, hl, hm, true_and]
    · simp only [if_true, u2, Nat.zero_le, hl, hm, true_and]
  have HO : ∃ q, oceanStep o.LMAX o.order o.ocean (truncate r (some o.LMAX) 0 (some o.order)) = .ok q ∧
      Holds q o.LMAX o.order n r.time grace.month
        (fun b t l m => compensated b o.ocean h (h.month.idxOf (grace.month.getD t 0)) l m) := by
    unfold oceanStep
    cases hoc : o.ocean with
    | none => exact ⟨_, rfl, HT⟩
    | some oc =>
      obtain ⟨o1, o2, o3⟩ := ho oc hoc
      have hnt : (truncate r (some o.LMAX) 0 (some o.order)).nt = some n := by
        rw [t3]
        rcases e4 with e4 | e4
        · exact e4
        · omega
      obtain ⟨q, q1, q2, q3⟩ := redistribute_holds o.LMAX o.order oc _ n n hnt _ _ _ HT
      refine ⟨q, q1, q3.congr ?_⟩
      intro b t l m ht hml hl hm
      simp only [compensated, coef_val _ oc, o2, o3, hl, hm, Nat.zero_le, and_self, if_true, val]
      simp
  obtain ⟨q, q1, q2⟩ := HO
  obtain ⟨f, f1, f2, f3⟩ := filtered_holds o hL q n _ _ _ q2
  refine ⟨f, ?_, r.time, e5, f3⟩
  simp only [removedField]
  rw [ha, e1]
  simp only [lift]
  rw [q1]
  exact f1

/-- the sum of the removed fields -/
theorem removedSum_holds (o : Opts) (hL : o.LMAX ≠ 0) (grace a : Harm ℝ) (n : ℕ) (D : Data o grace n)
    (ha : a.month = grace.month)
    (ho : ∀ oc, o.ocean = some oc → 2 ≤ n ∧ oc.lmax = o.LMAX ∧ oc.mmax = o.order)
    (hs : List (Harm ℝ)) (C : ∀ h ∈ hs, Covers grace h) (acc : Harm ℝ) (v : Bool → ℕ → ℕ → ℕ → ℝ)
    (hn : acc.nt = some n) (H : Holds acc o.LMAX o.order n grace.time grace.month v) :
    ∃ r, removedSum o a acc (hs.map .index) = .ok r ∧ r.nt = some n ∧ Holds r o.LMAX o.order n grace.time grace.month
      (fun b t l m => v b t l m + (hs.map fun h =>
        filt o (fun l m => compensated b o.ocean h (h.month.idxOf (grace.month.getD t 0)) l m) l m).sum) := by
  induction hs generalizing acc v with
  | nil => exact ⟨acc, rfl, hn, H.congr (by simp)⟩
  | cons h hs ih =>
    obtain ⟨r, r1, time, r2, r3⟩ := removedField_holds o hL grace a h n D ha (C h List.mem_cons_self) ho
    have hwf : acc.WF := by
      constructor
      · rw [H.time, hn, D.wf.1, D.nt]
      · rw [H.month, hn, D.wf.2, D.nt]
    have hcomp : Compatible acc r := by
      refine ⟨hwf, ?_⟩
      rcases r3.nt with h3 | h3
      · left; rw [h3, hn]
      · right; left; exact h3.1
    obtain ⟨q, q1, q2, q3, q4, q5, q6, q7⟩ := windowed_val (· + ·) (by simp) acc r hcomp
    have HQ : Holds q o.LMAX o.order n grace.time grace.month (fun b t l m => v b t l m +
        filt o (fun l m => compensated b o.ocean h (h.month.idxOf (grace.month.getD t 0)) l m) l m) := by
      refine ⟨q2.trans H.lmax, q3.trans H.mmax, Or.inl (q4.trans hn), q5.trans H.time, q6.trans H.month, ?_⟩
      intro b t l m ht hml hl hm
      rw [q7 b l m t (by rw [hn]; exact ht) (by rw [H.lmax]; exact hl) (by rw [H.mmax]; exact hm), H.vals b t l m ht hml hl hm,
        coef_val, if_pos ⟨by rw [r3.lmax]; exact hl, by rw [r3.mmax]; exact hm⟩]
      have hp : partnerDate acc r t = t := by
        unfold partnerDate
        split
        · rfl
        · rcases r3.nt with h3 | h3
          · rename_i hne; rw [h3, hn] at hne; exact absurd rfl hne
          · omega
      rw [hp, r3.vals b t l m ht hml hl hm]
    obtain ⟨s, s1, s2, s3⟩ := ih (fun h hh => C h (List.mem_cons_of_mem _ hh)) q _ (q4.trans hn) HQ
    refine ⟨s, ?_, s2, s3.congr ?_⟩
    · rw [List.map_cons, removedSum, removeStep, r1]
      simp only [add]
      rw [q1]
      exact s1
    · intro b t l m _ _ _ _
      simp only [List.map_cons, List.sum_cons]; ring

/-! ## synthesis -/

theorem usePLM_any (eps scalef : ℝ) (hs : scalef ≠ 0) (LMAX : ℕ) (hL : 2 ≤ LMAX) (lat : ℝ) :
    ∃ p, usePLM eps scalef LMAX lat none = some p ∧ ∀ l ≤ LMAX, ∀ m,
      p l m = Plm l m (Real.cos ((90 - lat) * Real.pi / 180)) (codeU eps (Real.cos ((90 - lat) * Real.pi / 180))) := by
  obtain ⟨s, e, hg⟩ := holmes_closed eps scalef hs LMAX hL (Real.cos ((90 - lat) * Real.pi / 180))
  refine ⟨s.p, ?_, ?_⟩
  · simp [usePLM, e]
  · intro l hl m
    rw [(hg l m).1, if_pos (by omega)]

theorem synthesis_value (eps scalef : ℝ) (hs : scalef ≠ 0) (LMIN LMAX M : ℕ) (hL : 2 ≤ LMAX) (hM : M ≤ LMAX) (h : Harm ℝ)
    (h1 : LMAX ≤ h.lmax) (h2 : M ≤ h.mmax) (lons lats : List ℚ) (f : ℕ → ℝ) (C S : ℕ → ℕ → ℝ)
    (hc : ∀ l m, m ≤ l → l ≤ LMAX → m ≤ M → h.clm l m 0 = C l m * f l ∧ h.slm l m 0 = S l m * f l) :
    synthesis eps scalef LMIN LMAX M h lons lats = .ok (lats.map fun lat : ℚ => lons.map fun lon : ℚ =>
      series LMIN LMAX M f C S (Real.cos ((90 - (lat : ℝ)) * Real.pi / 180))
        (codeU eps (Real.cos ((90 - (lat : ℝ)) * Real.pi / 180))) ((lon : ℝ) * Real.pi / 180)) := by
  unfold synthesis
  rw [if_neg (by omega), if_neg (by omega), if_neg (by omega)]
  congr 1
  apply List.map_congr_left; intro lat _
  apply List.map_congr_left; intro lon _
  obtain ⟨p, hp, hv⟩ := usePLM_any eps scalef hs LMAX hL (lat : ℝ)
  unfold harmonicSummation
  simp only
  rw [show effLmax (h.lmax + 1) LMAX = LMAX by unfold effLmax; rw [if_neg (by omega)], hp, Option.map_some, Option.getD_some,
    Option.getD_some, harmSumCore_eq]
  unfold sphSum series
  apply Finset.sum_congr rfl; intro l hl
  have hl := Finset.mem_Icc.1 hl
  rw [← Finset.sum_subset (s₁ := Finset.range (min l M + 1))]
  · apply Finset.sum_congr rfl; intro m hm
    have hm := Finset.mem_range.1 hm
    obtain ⟨q1, q2⟩ := hc l m (by omega) hl.2 (by omega)
    simp only [hv l hl.2, q1, q2]; ring
  · intro m hm
    have := Finset.mem_range.1 hm
    exact Finset.mem_range.2 (by omega)
  · intro m hm hm'
    have h3 := Finset.mem_range.1 hm
    have h4 : ¬ m < min l M + 1 := fun h => hm' (Finset.mem_range.2 h)
    rw [hv l hl.2, Plm_zero_of_lt l m (by omega), zero_mul]

theorem dateField_val (b : Bool) (h : Harm ℝ) (i t l m : ℕ) : val b (dateField h i) t l m = val b h i l m := by
  cases b <;> rfl

theorem factorList_get (LMAX : ℕ) (d w : ℕ → ℝ) (l : ℕ) (hl : l < (factorList LMAX d w).length) :
    (factorList LMAX d w)[l] = d l * w l := by
  simp [factorList]

/-- one month -/
theorem monthMap_value (eps scalef : ℝ) (hs : scalef ≠ 0) (o : Opts) (hL : 2 ≤ o.LMAX) (hM : o.order ≤ o.LMAX)
    (d w : ℕ → ℝ) (a r rate : Harm ℝ) (n : ℕ) (time : List ℚ) (month : List ℤ) (v x : Bool → ℕ → ℕ → ℕ → ℝ)
    (ha : a.nt = some n) (hr : r.nt = some n) (ht : time.length = n) (hmo : month.length = n)
    (A : Holds a o.LMAX o.order n time month v) (R : Holds r o.LMAX o.order n time month x) (lons lats : List ℚ)
    (i : ℕ) (hi : i < n) :
    monthMap eps scalef o (factorList o.LMAX d w) a (giaSeries rate a) r lons lats i =
      .ok ⟨lats.map fun lat : ℚ => lons.map fun lon : ℚ =>
          series o.LMIN o.LMAX o.order (fun l => d l * w l)
            (fun l m => v false i l m - coef false rate 0 l m * (((time.getD i 0 : ℚ) : ℝ) - 2003.3) - x false i l m)
            (fun l m => v true i l m - coef true rate 0 l m * (((time.getD i 0 : ℚ) : ℝ) - 2003.3) - x true i l m)
            (Real.cos ((90 - (lat : ℝ)) * Real.pi / 180))
            (codeU eps (Real.cos ((90 - (lat : ℝ)) * Real.pi / 180))) ((lon : ℝ) * Real.pi / 180),
        [time.getD i 0], [month.getD i 0]⟩ := by
  have wa : a.WF := ⟨by rw [A.time, ha]; exact ht, by rw [A.month, ha]; exact hmo⟩
  have wr : r.WF := ⟨by rw [R.time, hr]; exact ht, by rw [R.month, hr]; exact hmo⟩
  have hg : (giaSeries rate a).nt = some n := by
    show some a.time.length = _
    rw [A.time, ht]
  have wg : (giaSeries rate a).WF := by
    refine ⟨?_, ?_⟩
    · show a.time.length = _
      rw [hg, A.time]; exact ht
    · show a.month.length = _
      rw [hg, A.month]; exact hmo
  have gl : (giaSeries rate a).lmax = rate.lmax := rfl
  have gm : (giaSeries rate a).mmax = rate.mmax := rfl
  have gv : ∀ b l m, val b (giaSeries rate a) i l m = val b rate 0 l m * (((time.getD i 0 : ℚ) : ℝ) - 2003.3) := by
    intro b l m
    cases b
    · simp only [val, Bool.false_eq_true, if_false, giaSeries, drift, A.time]
      push_cast; norm_num
    · simp only [val, if_true, giaSeries, drift, A.time]
      push_cast; norm_num
  unfold monthMap
  rw [index_ok a n i ha wa hi, index_ok _ n i hg wg hi, index_ok r n i hr wr hi]
  simp only
  have wf1 : ∀ h : Harm ℝ, (dateField h i).WF := fun h => ⟨rfl, rfl⟩
  obtain ⟨y, y1, y2, y3, y4, y5, y6, y7⟩ := windowed_val (· - ·) (by simp) (dateField a i) (dateField (giaSeries rate a) i)
    ⟨wf1 a, Or.inl rfl⟩
  rw [show subtract (dateField a i) (dateField (giaSeries rate a) i) = _ from y1]
  simp only
  have yn : y.nt = none := y4
  have wy : y.WF := ⟨by rw [y5, y4]; exact (wf1 a).1, by rw [y6, y4]; exact (wf1 a).2⟩
  obtain ⟨z, z1, z2, z3, z4, z5, z6, z7⟩ := windowed_val (· - ·) (by simp) y (dateField r i) ⟨wy, Or.inl yn.symm⟩
  rw [show subtract y (dateField r i) = _ from z1]
  simp only
  have zn : z.nt = none := z4.trans yn
  have wz : z.WF := ⟨by rw [z5, z4]; exact wy.1, by rw [z6, z4]; exact wy.2⟩
  have zl : z.lmax = o.LMAX := z2.trans (y2.trans A.lmax)
  have zm : z.mmax = o.order := z3.trans (y3.trans A.mmax)
  obtain ⟨c, c1, c2, c3, c4, c5, c6, c7⟩ := convolve_spec z wz (factorList o.LMAX d w)
    (by rw [zl]; simp [factorList])
  rw [c1]
  simp only
  have zval : ∀ b l m, m ≤ l → l ≤ o.LMAX → m ≤ o.order → val b z 0 l m =
      v b i l m - coef b rate 0 l m * (((time.getD i 0 : ℚ) : ℝ) - 2003.3) - x b i l m := by
    intro b l m hml hl hm
    have ay : y.lmax = o.LMAX := y2.trans A.lmax
    have ay' : y.mmax = o.order := y3.trans A.mmax
    have al : (dateField a i).lmax = o.LMAX := A.lmax
    have al' : (dateField a i).mmax = o.order := A.mmax
    rw [z7 b l m 0 (by rw [yn]; simp) (by omega) (by omega),
      y7 b l m 0 (by show 0 < 1; omega) (by omega) (by omega)]
    rw [dateField_val, A.vals b i l m hi hml hl hm, coef_val, coef_val, dateField_val, dateField_val, gv, coef_val,
      R.vals b i l m hi hml hl hm]
    rw [if_pos (show l ≤ (dateField r i).lmax ∧ m ≤ (dateField r i).mmax from ⟨by rw [show (dateField r i).lmax = _ from R.lmax]; exact hl,
      by rw [show (dateField r i).mmax = _ from R.mmax]; exact hm⟩)]
    show _ - (if l ≤ rate.lmax ∧ m ≤ rate.mmax then _ else 0) - _ = _
    by_cases hw : l ≤ rate.lmax ∧ m ≤ rate.mmax
    · rw [if_pos hw, if_pos hw]
    · rw [if_neg hw, if_neg hw, zero_mul]
  rw [synthesis_value eps scalef hs o.LMIN o.LMAX o.order hL hM c (by rw [c2, zl]) (by rw [c3, zm]) lons lats
    (fun l => d l * w l)
    (fun l m => v false i l m - coef false rate 0 l m * (((time.getD i 0 : ℚ) : ℝ) - 2003.3) - x false i l m)
    (fun l m => v true i l m - coef true rate 0 l m * (((time.getD i 0 : ℚ) : ℝ) - 2003.3) - x true i l m)]
  · simp only [c5, z5, y5, c6, z6, y6]
    simp only [dateField, A.time, A.month]
  · intro l m hml hl hm
    obtain ⟨q1, q2⟩ := c7 l m 0 (by rw [zl]; exact hl) (by rw [zn]; simp)
    rw [factorList_get] at q1 q2
    have e1 := zval false l m hml hl hm
    have e2 := zval true l m hml hl hm
    simp only [val, Bool.false_eq_true, if_false, if_true] at e1 e2
    rw [q1, q2, e1, e2]
    exact ⟨rfl, rfl⟩

theorem mapM_ok {A B : Type} (f : A → Except Err B) (g : A → B) (xs : List A) (h : ∀ x ∈ xs, f x = .ok (g x)) :
    xs.mapM f = .ok (xs.map g) := by
  induction xs with
  | nil => rfl
  | cons x xs ih =>
    rw [List.mapM_cons, h x List.mem_cons_self, ih fun y hy => h y (List.mem_cons_of_mem _ hy)]
    rfl

end Verif.Maps
