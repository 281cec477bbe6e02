import Verif.Harmonics.Model
import Verif.Time.Adjust
import Mathlib.Tactic.FieldSimp
import Mathlib.Algebra.BigOperators.Group.List.Basic
import Mathlib.Algebra.CharP.Defs
import Mathlib.Data.List.Dedup

/-!
# C18 subsetting, C19 aggregation, C20 iteration, C21 temporal mean
-/
set_option linter.unusedSectionVars false
namespace Verif.Harmonics
open Verif.Time
variable {K : Type} [Field K]

/-! ## C18 subset -/

/-- Specification: `r` consists of the dates `is` of `h`, in this order, each with its own
coefficients, time and month. -/
def Selects (h r : Harm K) (is : List ℕ) : Prop :=
  r.lmax = h.lmax ∧ r.mmax = h.mmax ∧
  (r.nt = some is.length ∨ (r.nt = none ∧ is.length = 1)) ∧
  r.time = is.map (fun i => h.time.getD i 0) ∧ r.month = is.map (fun i => h.month.getD i 0) ∧
  ∀ t i, is[t]? = some i → ∀ l m, r.clm l m t = h.clm l m i ∧ r.slm l m t = h.slm l m i

/-- C18: a requested month that is not in the object raises `IOError` naming exactly the
requested months that are missing. -/
theorem subset_missing (h : Harm K) (months : List ℤ) (hm : ∃ m ∈ months, m ∉ h.month) :
    ∃ check, subset h months = .error (.ioError check) ∧
      ∀ m, m ∈ check ↔ m ∈ months ∧ m ∉ h.month := by
  refine ⟨(months.filter fun m => m ∉ h.month).dedup, ?_, ?_⟩
  · unfold subset
    simp only
    rw [if_pos]
    obtain ⟨m, h1, h2⟩ := hm
    intro he
    have : m ∈ (months.filter fun m => m ∉ h.month).dedup := by
      rw [List.mem_dedup, List.mem_filter]; simp [h1, h2]
    rw [he] at this; simp at this
  · intro m; simp [List.mem_dedup, List.mem_filter]

/-- dates of the object whose month is requested -/
def hits (h : Harm K) (months : List ℤ) : List ℕ :=
  (List.range h.month.length).filter fun i => h.month.getD i 0 ∈ months

theorem hits_month (h : Harm K) (months : List ℤ) :
    (hits h months).map (fun i => h.month.getD i 0) = h.month.filter (· ∈ months) := by
  have key : h.month = (List.range h.month.length).map (fun i => h.month.getD i 0) := by
    apply List.ext_getElem
    · simp
    · intro i h1 h2; simp [h1]
  conv_rhs => rw [key]
  rw [List.filter_map]
  rfl

theorem hits_sorted (h : Harm K) (months : List ℤ) : (hits h months).Pairwise (· < ·) :=
  List.pairwise_lt_range.filter _

theorem mem_hits (h : Harm K) (months : List ℤ) (i : ℕ) :
    i ∈ hits h months ↔ i < h.month.length ∧ h.month.getD i 0 ∈ months := by
  simp [hits]

theorem hits_length (h : Harm K) (months : List ℤ) (hn : h.month.Nodup) (hq : months.Nodup)
    (ha : ∀ m ∈ months, m ∈ h.month) : (hits h months).length = months.length := by
  have := congrArg List.length (hits_month h months)
  rw [List.length_map] at this
  rw [this]
  apply List.Perm.length_eq
  rw [List.perm_ext_iff_of_nodup (hn.filter _) hq]
  intro m; simp only [List.mem_filter, decide_eq_true_eq]
  exact ⟨fun h => h.2, fun h => ⟨ha m h, h⟩⟩

theorem map_range_get {α : Type} (is : List ℕ) (f : ℕ → α) (d : α) :
    ((List.range is.length).map fun t => match is[t]? with | some i => f i | none => d)
      = is.map f := by
  apply List.ext_getElem
  · simp
  · intro i h1 h2
    simp only [List.length_map, List.length_range] at h1
    simp [h1]

theorem squeeze_selects (h r : Harm K) (is : List ℕ) (hs : Selects h r is) :
    Selects h (squeeze r) is := by
  obtain ⟨h1, h2, h3, h4, h5, h6⟩ := hs
  unfold squeeze
  split
  · rename_i hn
    refine ⟨h1, h2, Or.inr ⟨rfl, ?_⟩, h4, h5, h6⟩
    rcases h3 with h3 | h3
    · rw [hn] at h3; simpa using h3.symm
    · exact h3.2
  · exact ⟨h1, h2, h3, h4, h5, h6⟩

/-- C18: for an object with distinct months and distinct available requested months, `subset`
returns the dates of the object whose month was requested, in the order of the object, each with
its own coefficients, time and month. -/
theorem subset_spec (h : Harm K) (months : List ℤ) (hn : h.month.Nodup) (hq : months.Nodup)
    (ha : ∀ m ∈ months, m ∈ h.month) :
    ∃ r is, subset h months = .ok r ∧ Selects h r is ∧ is.Pairwise (· < ·) ∧
      (∀ i, i ∈ is ↔ i < h.month.length ∧ h.month.getD i 0 ∈ months) ∧
      r.month.Perm months := by
  have hl := hits_length h months hn hq ha
  have hc : (months.filter fun m => m ∉ h.month).dedup = [] := by
    rw [List.dedup_eq_nil, List.filter_eq_nil_iff]
    intro m hm; simp [ha m hm]
  have key : Selects h
      { lmax := h.lmax, mmax := h.mmax, nt := some months.length
        clm := fun l m t => match (hits h months)[t]? with | some i => h.clm l m i | none => 0
        slm := fun l m t => match (hits h months)[t]? with | some i => h.slm l m i | none => 0
        time := (List.range months.length).map fun t =>
          match (hits h months)[t]? with | some i => h.time.getD i 0 | none => 0
        month := (List.range months.length).map fun t =>
          match (hits h months)[t]? with | some i => h.month.getD i 0 | none => 0 }
      (hits h months) := by
    refine ⟨rfl, rfl, Or.inl (by simp [hl]), ?_, ?_, ?_⟩
    · show _ = _; simp only; rw [← hl]; exact map_range_get _ _ _
    · simp only; rw [← hl]; exact map_range_get _ _ _
    · intro t i hi l m; simp [hi]
  refine ⟨_, hits h months, ?_, squeeze_selects _ _ _ key, hits_sorted _ _, mem_hits _ _, ?_⟩
  · unfold subset
    simp only [hc, ne_eq, not_true_eq_false, if_false]
    rw [if_neg]
    · rfl
    · show ¬ months.length < (hits h months).length
      omega
  · rw [(squeeze_selects _ _ _ key).2.2.2.2.1, hits_month]
    rw [List.perm_ext_iff_of_nodup (hn.filter _) hq]
    intro m; simp only [List.mem_filter, decide_eq_true_eq]
    exact ⟨fun h => h.2, fun h => ⟨ha m h, h⟩⟩

/-- C18: the result does not depend on the order of the request. -/
theorem subset_perm (h : Harm K) (m1 m2 : List ℤ) (hp : m1.Perm m2)
    (ha : ∀ m ∈ m1, m ∈ h.month) : subset h m1 = subset h m2 := by
  have hc1 : (m1.filter fun m => m ∉ h.month).dedup = [] := by
    rw [List.dedup_eq_nil, List.filter_eq_nil_iff]
    intro m hm; simp [ha m hm]
  have hc2 : (m2.filter fun m => m ∉ h.month).dedup = [] := by
    rw [List.dedup_eq_nil, List.filter_eq_nil_iff]
    intro m hm; simp [ha m (hp.mem_iff.2 hm)]
  have hi : ∀ i : ℕ, (decide (h.month.getD i 0 ∈ m1)) = decide (h.month.getD i 0 ∈ m2) := by
    intro i; simp only [hp.mem_iff]
  unfold subset
  simp only [hc1, hc2, hp.length_eq, hi]

/-- C18: requesting all months of an object with distinct months returns all its dates. -/
theorem subset_all (h : Harm K) (n : ℕ) (hnt : h.nt = some n) (hwf : h.WF)
    (hn : h.month.Nodup) (months : List ℤ) (hp : months.Perm h.month) :
    ∃ r, subset h months = .ok r ∧ r.lmax = h.lmax ∧ r.mmax = h.mmax ∧ r.time = h.time ∧
      r.month = h.month ∧
      ∀ l m t, t < n → r.clm l m t = h.clm l m t ∧ r.slm l m t = h.slm l m t := by
  obtain ⟨r, is, h1, h2, h3, h4, -⟩ := subset_spec h months hn (hp.nodup_iff.2 hn)
    (fun m hm => hp.mem_iff.1 hm)
  obtain ⟨w1, w2⟩ := hwf
  rw [hnt] at w1 w2
  simp only [Option.getD_some] at w1 w2
  have his : is = List.range n := by
    apply List.Perm.eq_of_pairwise (le := (· < ·))
    · intro a b _ _ h1 h2; omega
    · exact h3
    · exact List.pairwise_lt_range
    · rw [List.perm_ext_iff_of_nodup (h3.imp fun h => by omega) List.nodup_range]
      intro i
      rw [h4, w2, List.mem_range]
      constructor
      · exact fun h => h.1
      · intro hi
        refine ⟨hi, hp.mem_iff.2 ?_⟩
        have : h.month.getD i 0 = h.month[i]'(by omega) := by simp [w2, hi]
        rw [this]; exact List.getElem_mem _
  subst his
  obtain ⟨s1, s2, -, s4, s5, s6⟩ := h2
  refine ⟨r, h1, s1, s2, ?_, ?_, ?_⟩
  · rw [s4]; apply List.ext_getElem
    · simp [w1]
    · intro i a b; simp at a ⊢; simp [w1, a]
  · rw [s5]; apply List.ext_getElem
    · simp [w2]
    · intro i a b; simp at a ⊢; simp [w2, a]
  · intro l m t ht; exact s6 t t (by simp [ht]) l m

/-- C18 (deviation): if more dates of the object have a requested month than months were
requested (an object with a repeated month), the call fails with `IndexError`. -/
theorem subset_repeated_object (h : Harm K) (months : List ℤ) (ha : ∀ m ∈ months, m ∈ h.month)
    (hd : months.length < (h.month.filter (· ∈ months)).length) :
    subset h months = .error .indexError := by
  have hc : (months.filter fun m => m ∉ h.month).dedup = [] := by
    rw [List.dedup_eq_nil, List.filter_eq_nil_iff]
    intro m hm; simp [ha m hm]
  unfold subset
  simp only [hc, ne_eq, not_true_eq_false, if_false]
  rw [if_pos]
  show months.length < (hits h months).length
  rw [← hits_month, List.length_map] at hd
  exact hd

/-- C18 (deviation): a month requested twice from an object with distinct months gives, after the
selected dates, one all-zero field with date 0 and month 0 for every repetition. -/
theorem subset_repeated_request (h : Harm K) (months : List ℤ) (hn : h.month.Nodup)
    (ha : ∀ m ∈ months, m ∈ h.month) (hd : ¬ months.Nodup) :
    ∃ r, subset h months = .ok r ∧ r.month.length = months.length ∧
      months.dedup.length < months.length ∧
      ∀ t, months.dedup.length ≤ t → t < months.length →
        r.month.getD t 1 = 0 ∧ r.time.getD t 1 = 0 ∧ ∀ l m, r.clm l m t = 0 ∧ r.slm l m t = 0 := by
  have hl := hits_length h months.dedup hn (List.nodup_dedup _)
    (fun m hm => ha m (List.mem_dedup.1 hm))
  have he : hits h months.dedup = hits h months := by
    unfold hits; simp only [List.mem_dedup]
  rw [he] at hl
  have hlt : months.dedup.length < months.length := by
    rcases Nat.lt_or_ge months.dedup.length months.length with h | h
    · exact h
    · exfalso; apply hd
      have := (List.dedup_sublist months).eq_of_length_le h
      rw [← this]; exact List.nodup_dedup _
  have hc : (months.filter fun m => m ∉ h.month).dedup = [] := by
    rw [List.dedup_eq_nil, List.filter_eq_nil_iff]
    intro m hm; simp [ha m hm]
  have hsub : ∃ r, subset h months = .ok r ∧ r = squeeze
      { lmax := h.lmax, mmax := h.mmax, nt := some months.length
        clm := fun l m t => match (hits h months)[t]? with | some i => h.clm l m i | none => 0
        slm := fun l m t => match (hits h months)[t]? with | some i => h.slm l m i | none => 0
        time := (List.range months.length).map fun t =>
          match (hits h months)[t]? with | some i => h.time.getD i 0 | none => 0
        month := (List.range months.length).map fun t =>
          match (hits h months)[t]? with | some i => h.month.getD i 0 | none => 0 } := by
    refine ⟨_, ?_, rfl⟩
    unfold subset
    simp only [hc, ne_eq, not_true_eq_false, if_false]
    rw [if_neg]
    · rfl
    · show ¬ months.length < (hits h months).length
      omega
  obtain ⟨r, h1, h2⟩ := hsub
  have sq : ∀ g : Harm K, (squeeze g).month = g.month ∧ (squeeze g).time = g.time ∧
      (squeeze g).clm = g.clm ∧ (squeeze g).slm = g.slm := by
    intro g; unfold squeeze; split <;> simp
  refine ⟨r, h1, ?_, hlt, ?_⟩
  · rw [h2, (sq _).1]; simp
  · intro t ht1 ht2
    have hnone : (hits h months)[t]? = none := by
      rw [List.getElem?_eq_none_iff]; omega
    rw [h2, (sq _).1, (sq _).2.1, (sq _).2.2.1, (sq _).2.2.2]
    simp [hnone, ht2]

/-! ## C19 from_list -/

/-- C19: `from_list` returns the fields sorted by time; date, coefficients (on the common degrees
and orders) of output `t` come from one input object, every input is used exactly once; if the
months are distinct each field also keeps its own month. -/
theorem fromList_spec (objs : List (Harm K)) (hne : objs ≠ []) (p : List ℕ)
    (hp : IsArgsort (objs.map fun o => o.time.headD 0) p) :
    ∃ r, fromList objs p = .ok r ∧ r.nt = some objs.length ∧
      (∃ o ∈ objs, r.lmax = o.lmax) ∧ (∃ o ∈ objs, r.mmax = o.mmax) ∧
      (∀ o ∈ objs, r.lmax ≤ o.lmax ∧ r.mmax ≤ o.mmax) ∧
      r.time.Pairwise (· ≤ ·) ∧
      p.Perm (List.range objs.length) ∧
      (∀ t i, p[t]? = some i → ∃ o, objs[i]? = some o ∧ r.time.getD t 0 = o.time.headD 0 ∧
        (∀ l m, l ≤ r.lmax → m ≤ r.mmax →
          r.clm l m t = o.clm l m 0 ∧ r.slm l m t = o.slm l m 0) ∧
        ((objs.map fun o => o.month.headD 0).Nodup → r.month.getD t 0 = o.month.headD 0)) := by
  obtain ⟨hperm, hsort⟩ := hp
  rw [List.length_map] at hperm
  have hL : ∃ L, (objs.map Harm.lmax).min? = some L := by
    rw [← Option.isSome_iff_exists, List.isSome_min?_iff]; simpa using hne
  have hM : ∃ M, (objs.map Harm.mmax).min? = some M := by
    rw [← Option.isSome_iff_exists, List.isSome_min?_iff]; simpa using hne
  obtain ⟨L, hL⟩ := hL
  obtain ⟨M, hM⟩ := hM
  have hL' := hL
  have hM' := hM
  rw [List.min?_eq_some_iff] at hL' hM'
  have hmem : ∀ t i : ℕ, p[t]? = some i → ∃ o, objs[i]? = some o := by
    intro t i hi
    have : i ∈ p := List.mem_of_getElem? hi
    rw [hperm.mem_iff, List.mem_range] at this
    exact ⟨objs[i], by simp [this]⟩
  have hhead : ∀ o : Harm K, (o.time.head?).getD 0 = o.time.headD 0 := by
    intro o; cases o.time <;> rfl
  have hheadm : ∀ o : Harm K, (o.month.head?).getD 0 = o.month.headD 0 := by
    intro o; cases o.month <;> rfl
  have htime : ∀ i : ℕ, ((objs[i]?).bind (·.time.head?)).getD 0 =
      (objs.map fun o => o.time.headD 0).getD i 0 := by
    intro i
    rw [List.getD_eq_getElem?_getD, List.getElem?_map]
    cases objs[i]? with
    | none => rfl
    | some o => exact hhead o
  have hmonth : ∀ i : ℕ, ((objs[i]?).bind (·.month.head?)).getD 0 =
      (objs.map fun o => o.month.headD 0).getD i 0 := by
    intro i
    rw [List.getD_eq_getElem?_getD, List.getElem?_map]
    cases objs[i]? with
    | none => rfl
    | some o => exact hheadm o
  refine ⟨_, by unfold fromList; rw [hL, hM], rfl, ?_, ?_, ?_, ?_, hperm, ?_⟩
  · have := hL'.1; rw [List.mem_map] at this; obtain ⟨o, h1, h2⟩ := this; exact ⟨o, h1, h2.symm⟩
  · have := hM'.1; rw [List.mem_map] at this; obtain ⟨o, h1, h2⟩ := this; exact ⟨o, h1, h2.symm⟩
  · intro o ho
    exact ⟨hL'.2 _ (List.mem_map_of_mem ho), hM'.2 _ (List.mem_map_of_mem ho)⟩
  · simp only [htime]
    rw [List.pairwise_map]
    exact hsort
  · intro t i hi
    obtain ⟨o, ho⟩ := hmem t i hi
    refine ⟨o, ho, ?_, ?_, ?_⟩
    · simp only [htime]
      rw [List.getD_eq_getElem?_getD, List.getElem?_map, hi]
      simp [ho]
    · intro l m _ _
      simp [hi, ho]
    · intro hnd
      have hnd' : (p.map fun i => ((objs[i]?).bind (·.month.head?)).getD 0).Nodup := by
        simp only [hmonth]
        have h1 : (p.map fun i => (objs.map fun o => o.month.headD 0).getD i 0).Perm
            ((List.range objs.length).map fun i => (objs.map fun o => o.month.headD 0).getD i 0) :=
          hperm.map _
        rw [h1.nodup_iff]
        have h2 : ((List.range objs.length).map fun i =>
            (objs.map fun o => o.month.headD 0).getD i 0) = objs.map fun o => o.month.headD 0 := by
          apply List.ext_getElem
          · simp
          · intro i a b; simp at a ⊢; simp [a]
        rw [h2]; exact hnd
      simp only
      rw [adjustMonths_nodup _ hnd', List.getD_eq_getElem?_getD, List.getElem?_map, hi]
      rw [Option.map_some, Option.getD_some, ho]
      exact hheadm o

/-! ## C20 iteration -/

/-- The field of date `i` with its own date. -/
def dateField (h : Harm K) (i : ℕ) : Harm K :=
  { lmax := h.lmax, mmax := h.mmax, nt := none,
    clm := fun l m _ => h.clm l m i, slm := fun l m _ => h.slm l m i,
    time := [h.time.getD i 0], month := [h.month.getD i 0] }

theorem index_ok (h : Harm K) (n i : ℕ) (hnt : h.nt = some n) (hwf : h.WF) (hi : i < n) :
    index h i = .ok (dateField h i) := by
  obtain ⟨w1, w2⟩ := hwf
  rw [hnt] at w1 w2
  simp only [Option.getD_some] at w1 w2
  have a : h.time[i]? = some (h.time.getD i 0) := by simp [w1, hi]
  have b : h.month[i]? = some (h.month.getD i 0) := by simp [w2, hi]
  unfold index
  simp only [hnt, a, b, hi, if_true, dateField]

theorem index_stop (h : Harm K) (n i : ℕ) (hnt : h.nt = some n) (hi : n ≤ i) :
    index h i = .error .indexError := by
  unfold index
  simp only [hnt]
  split
  · rw [if_neg (by omega)]
  · rfl

theorem iterRun_append (h : Harm K) (pos : ℕ) (a b : List IterCmd) :
    iterRun h pos (a ++ b) = ((iterRun h (iterRun h pos a).1 b).1,
      (iterRun h pos a).2 ++ (iterRun h (iterRun h pos a).1 b).2) := by
  induction a generalizing pos with
  | nil => simp [iterRun]
  | cons c a ih => simp [iterRun, ih, List.append_assoc]

theorem iterRun_next (h : Harm K) (n : ℕ) (hnt : h.nt = some n) (hwf : h.WF) (k pos : ℕ) :
    pos ≤ n →
    iterRun h pos (List.replicate k .next) = (min (pos + k) n, (List.range' pos k).map fun i =>
      if i < n then some (dateField h i) else none) := by
  induction k generalizing pos with
  | zero => intro hp; simp [iterRun]; omega
  | succ k ih =>
    intro hp
    rw [List.replicate_succ]
    by_cases hlt : pos < n
    · simp only [iterRun, iterStep, index_ok h n pos hnt hwf hlt]
      rw [ih (pos + 1) (by omega), List.range'_succ]
      simp only [hlt, List.map_cons, if_true, List.singleton_append]
      refine Prod.ext ?_ rfl
      show min (pos + 1 + k) n = min (pos + (k + 1)) n
      congr 1; omega
    · have : pos = n := by omega
      subst this
      simp only [iterRun, iterStep, index_stop h pos pos hnt (le_refl _)]
      rw [ih pos (le_refl _), List.range'_succ]
      simp only [List.map_cons, lt_irrefl, if_false, List.singleton_append]
      refine Prod.ext (by simp) ?_
      show none :: _ = none :: _
      congr 1
      apply List.ext_getElem
      · simp
      · intro i a b
        simp; omega

/-- C20: whatever was done before with the object, a new loop yields the dates 0, 1, 2, … once
each with their own coefficients and dates, and then stops. -/
theorem iteration (h : Harm K) (n : ℕ) (hnt : h.nt = some n) (hwf : h.WF)
    (history : List IterCmd) (pos k : ℕ) :
    (iterRun h pos (history ++ .iter :: List.replicate k .next)).2 =
      (iterRun h pos history).2 ++
      (List.range k).map fun i => if i < n then some (dateField h i) else none := by
  rw [iterRun_append]
  simp only [iterRun, iterStep]
  rw [iterRun_next h n hnt hwf k 0 (Nat.zero_le _)]
  simp [List.range_eq_range']

/-- C20: `index(i)` is the field of date `i`, the one iteration yields. -/
theorem index_field (h : Harm K) (n i : ℕ) (hnt : h.nt = some n) (hwf : h.WF) :
    (i < n → index h i = .ok (dateField h i)) ∧ (n ≤ i → index h i = .error .indexError) :=
  ⟨fun hi => index_ok h n i hnt hwf hi, index_stop h n i hnt⟩

/-- C20 (deviation): a complete loop over the object nested in the first pass of another loop over
the same object leaves the outer loop exhausted: its second `next` stops although dates are
left. -/
theorem nested_loop_exhausts (h : Harm K) (n : ℕ) (hnt : h.nt = some n) (hwf : h.WF) (pos : ℕ)
    (_ : 2 ≤ n) :
    (iterRun h pos ([.iter, .next] ++ .iter :: List.replicate (n + 1) .next ++ [.next])).2.getLast?
      = some none := by
  have hl : ∀ a : List IterCmd, a ++ .iter :: List.replicate (n + 1) .next ++ [.next] =
      a ++ .iter :: List.replicate (n + 2) .next := by
    intro a; rw [List.replicate_succ' (n := n + 1)]; simp
  rw [hl, iteration h n hnt hwf, List.range_succ (n := n + 1)]
  simp

/-- C19/C20: splitting an object with increasing times and distinct months into its dates and
rebuilding it returns it. -/
theorem fromList_split (h : Harm K) (n : ℕ) (hnt : h.nt = some n) (hn : 0 < n) (hwf : h.WF)
    (hs : h.time.Pairwise (· < ·)) (hm : h.month.Nodup) (p : List ℕ)
    (hp : IsArgsort (((List.range n).map (dateField h)).map fun o => o.time.headD 0) p) :
    ∃ r, fromList ((List.range n).map (dateField h)) p = .ok r ∧
      r.lmax = h.lmax ∧ r.mmax = h.mmax ∧ r.nt = h.nt ∧ r.time = h.time ∧ r.month = h.month ∧
      ∀ l m t, t < n → l ≤ h.lmax → m ≤ h.mmax →
        r.clm l m t = h.clm l m t ∧ r.slm l m t = h.slm l m t := by
  obtain ⟨w1, w2⟩ := hwf
  rw [hnt] at w1 w2
  simp only [Option.getD_some] at w1 w2
  have htimes : (((List.range n).map (dateField h)).map fun o => o.time.headD 0) = h.time := by
    apply List.ext_getElem
    · simp [w1]
    · intro i a b; simp [dateField, b]
  have hmonths : (((List.range n).map (dateField h)).map fun o => o.month.headD 0) = h.month := by
    apply List.ext_getElem
    · simp [w2]
    · intro i a b; simp [dateField, b]
  have hpr : p = List.range n := by
    rw [htimes] at hp
    obtain ⟨q1, q2⟩ := hp
    rw [w1] at q1
    have hlt : p.Pairwise (· < ·) := by
      have hnd : p.Nodup := q1.nodup_iff.2 List.nodup_range
      have hboth := q2.and hnd
      have hmem : ∀ i ∈ p, i < n := fun i hi => by simpa using q1.mem_iff.1 hi
      have := hboth.imp_of_mem (S := (· < ·)) ?_
      · exact this
      · intro a b ha hb ⟨h1, h2⟩
        by_contra hcon
        have hba : b < a := by omega
        have := List.pairwise_iff_getElem.1 hs b a (by rw [w1]; exact hmem b hb)
          (by rw [w1]; exact hmem a ha) hba
        have ea : h.time.getD a 0 = h.time[a]'(by rw [w1]; exact hmem a ha) := by
          simp [w1, hmem a ha]
        have eb : h.time.getD b 0 = h.time[b]'(by rw [w1]; exact hmem b hb) := by
          simp [w1, hmem b hb]
        rw [ea, eb] at h1
        exact absurd this (not_lt.2 h1)
    apply List.Perm.eq_of_pairwise (le := (· < ·))
    · intro a b _ _ h1 h2; omega
    · exact hlt
    · exact List.pairwise_lt_range
    · exact q1
  obtain ⟨r, h1, h2, ⟨o1, ho1, e1⟩, ⟨o2, ho2, e2⟩, -, -, -, h7⟩ :=
    fromList_spec ((List.range n).map (dateField h)) (by simp; omega) p hp
  rw [List.mem_map] at ho1 ho2
  obtain ⟨i1, -, rfl⟩ := ho1
  obtain ⟨i2, -, rfl⟩ := ho2
  have hlen : r.time.length = n ∧ r.month.length = n := by
    have e := h1
    unfold fromList at e
    split at e
    · injection e with e
      rw [← e, hpr]
      simp only [List.length_map, List.length_range, adjustMonths_length, and_self]
    · exact absurd e (by simp)
  have hrow : ∀ t, t < n → r.time.getD t 0 = h.time.getD t 0 ∧
      r.month.getD t 0 = h.month.getD t 0 ∧ ∀ l m, l ≤ h.lmax → m ≤ h.mmax →
        r.clm l m t = h.clm l m t ∧ r.slm l m t = h.slm l m t := by
    intro t ht
    obtain ⟨o, g1, g2, g3, g4⟩ := h7 t t (by rw [hpr]; simp [ht])
    rw [hmonths] at g4
    have : o = dateField h t := by simp [ht] at g1; exact g1.symm
    subst this
    refine ⟨g2, g4 hm, ?_⟩
    intro l m hl hm'
    exact g3 l m (by rw [e1]; exact hl) (by rw [e2]; exact hm')
  refine ⟨r, h1, e1, e2, ?_, ?_, ?_, fun l m t ht => (hrow t ht).2.2 l m⟩
  · rw [h2, hnt]; simp
  · apply List.ext_getElem
    · rw [hlen.1, w1]
    · intro i a b
      have := (hrow i (by omega)).1
      simpa [a, b] using this
  · apply List.ext_getElem
    · rw [hlen.2, w2]
    · intro i a b
      have := (hrow i (by omega)).2.1
      simpa [a, b] using this

/-! ## C21 mean -/

theorem meanStep_fold (apply : Bool) (idx : List ℕ) (ps : List (ℕ × ℕ)) (hn : ps.Nodup)
    (st : (ℕ × ℕ → K) × (ℕ × ℕ → ℕ → K)) (p : ℕ × ℕ) :
    (ps.foldl (meanStep apply idx) st).1 p =
      (if p ∈ ps then npMean (idx.map fun t => st.2 p t) else st.1 p) ∧
    (ps.foldl (meanStep apply idx) st).2 p =
      (if p ∈ ps ∧ apply then fun t => st.2 p t - npMean (idx.map fun t => st.2 p t) else st.2 p) := by
  induction ps generalizing st with
  | nil => simp
  | cons q ps ih =>
    rw [List.nodup_cons] at hn
    rw [List.foldl_cons]
    obtain ⟨i1, i2⟩ := ih hn.2 (meanStep apply idx st q)
    rw [i1, i2]
    by_cases hq : p = q
    · subst hq
      simp only [hn.1, if_false, false_and, List.mem_cons, true_or, if_true, true_and]
      unfold meanStep
      cases apply <;> simp
    · have h2 : (meanStep apply idx st q).2 p = st.2 p := by
        unfold meanStep; cases apply <;> simp [Function.update_of_ne hq]
      have h1 : (meanStep apply idx st q).1 p = st.1 p := by
        unfold meanStep; simp [Function.update_of_ne hq]
      rw [h1, h2]
      simp [hq]

/-- C21: `mean` returns the arithmetic mean over the selected dates of every coefficient with
`m ≤ l`, and zero above the diagonal. -/
theorem mean_value (h : Harm K) (apply : Bool) (idx : List ℕ) (l m : ℕ) (hl : l ≤ h.lmax)
    (hm : m ≤ h.mmax) :
    (mean h apply idx).1.clm l m 0 =
      (if m ≤ l then (idx.map fun t => h.clm l m t).sum / idx.length else 0) ∧
    (mean h apply idx).1.slm l m 0 =
      (if m ≤ l then (idx.map fun t => h.slm l m t).sum / idx.length else 0) := by
  unfold mean
  simp only [(meanStep_fold apply idx _ (lmPairs_nodup h.lmax h.mmax) _ (l, m)).1]
  simp [mem_lmPairs, hl, hm, npMean]

/-- C21: with `apply` the mean is subtracted at every date from the coefficients with `m ≤ l`,
without it nothing changes. Shape and dates are kept. -/
theorem mean_applied (h : Harm K) (apply : Bool) (idx : List ℕ) (l m t : ℕ) (hl : l ≤ h.lmax)
    (hm : m ≤ h.mmax) :
    (mean h apply idx).2.clm l m t = (if m ≤ l ∧ apply then
      h.clm l m t - (mean h apply idx).1.clm l m 0 else h.clm l m t) ∧
    (mean h apply idx).2.slm l m t = (if m ≤ l ∧ apply then
      h.slm l m t - (mean h apply idx).1.slm l m 0 else h.slm l m t) ∧
    (mean h apply idx).2.lmax = h.lmax ∧ (mean h apply idx).2.mmax = h.mmax ∧
    (mean h apply idx).2.time = h.time ∧ (mean h apply idx).2.month = h.month := by
  refine ⟨?_, ?_, rfl, rfl, rfl, rfl⟩
  · rw [(mean_value h apply idx l m hl hm).1]
    unfold mean
    simp only [(meanStep_fold apply idx _ (lmPairs_nodup h.lmax h.mmax) _ (l, m)).2]
    simp only [mem_lmPairs, hl, hm, and_true, npMean, List.length_map]
    split_ifs <;> simp_all
  · rw [(mean_value h apply idx l m hl hm).2]
    unfold mean
    simp only [(meanStep_fold apply idx _ (lmPairs_nodup h.lmax h.mmax) _ (l, m)).2]
    simp only [mem_lmPairs, hl, hm, and_true, npMean, List.length_map]
    split_ifs <;> simp_all

theorem sum_sub_const (idx : List ℕ) (f : ℕ → K) (c : K) :
    (idx.map fun t => f t - c).sum = (idx.map f).sum - idx.length * c := by
  induction idx with
  | nil => simp
  | cons a idx ih => simp only [List.map_cons, List.sum_cons, ih, List.length_cons]; push_cast; ring

/-- C21: after removing the mean, the mean over the same dates is zero for every coefficient. -/
theorem mean_removed_zero [CharZero K] (h : Harm K) (idx : List ℕ) (hne : idx ≠ []) (l m : ℕ)
    (hl : l ≤ h.lmax) (hm : m ≤ h.mmax) (b : Bool) :
    (mean (mean h true idx).2 b idx).1.clm l m 0 = 0 ∧
    (mean (mean h true idx).2 b idx).1.slm l m 0 = 0 := by
  have hlen : (idx.length : K) ≠ 0 := by
    rw [Nat.cast_ne_zero]; intro h0; exact hne (List.length_eq_zero_iff.1 h0)
  have a := mean_value (mean h true idx).2 b idx l m hl hm
  have c := fun t => mean_applied h true idx l m t hl hm
  have v := mean_value h true idx l m hl hm
  rw [a.1, a.2]
  by_cases hml : m ≤ l
  · simp only [hml, if_true] at v ⊢
    simp only [(c _).1, (c _).2.1, hml, true_and, if_true, v.1, v.2, sum_sub_const]
    constructor <;> (field_simp; ring)
  · simp [hml]

/-- C21: removing the mean twice over the same dates changes nothing more. -/
theorem mean_idempotent [CharZero K] (h : Harm K) (idx : List ℕ) (hne : idx ≠ []) (l m t : ℕ)
    (hl : l ≤ h.lmax) (hm : m ≤ h.mmax) :
    (mean (mean h true idx).2 true idx).2.clm l m t = (mean h true idx).2.clm l m t ∧
    (mean (mean h true idx).2 true idx).2.slm l m t = (mean h true idx).2.slm l m t := by
  have z := mean_removed_zero h idx hne l m hl hm true
  have c := mean_applied (mean h true idx).2 true idx l m t hl hm
  rw [c.1, c.2.1, z.1, z.2]
  simp

/-- C21: differences between dates are unchanged by removing the mean. -/
theorem mean_differences (h : Harm K) (idx : List ℕ) (l m t t' : ℕ)
    (hl : l ≤ h.lmax) (hm : m ≤ h.mmax) :
    (mean h true idx).2.clm l m t - (mean h true idx).2.clm l m t' = h.clm l m t - h.clm l m t' ∧
    (mean h true idx).2.slm l m t - (mean h true idx).2.slm l m t' = h.slm l m t - h.slm l m t' := by
  have c := mean_applied h true idx l m t hl hm
  have d := mean_applied h true idx l m t' hl hm
  rw [c.1, c.2.1, d.1, d.2.1]
  by_cases hml : m ≤ l <;> simp [hml]

/-! ## the hypotheses can be met -/

/-- a three-date object used as witness -/
def sample : Harm ℚ :=
  { lmax := 2, mmax := 2, nt := some 3, clm := fun l m t => l + 10 * m + 100 * t,
    slm := fun l m t => l * m * t, time := [2003, 2004, 2005], month := [13, 25, 37] }

example : sample.WF ∧ sample.month.Nodup ∧ sample.time.Pairwise (· < ·) ∧
    ([25, 13] : List ℤ).Nodup ∧ ∀ m ∈ ([25, 13] : List ℤ), m ∈ sample.month := by
  refine ⟨⟨rfl, rfl⟩, by decide, by decide +kernel, by decide, by decide⟩

example : IsArgsort (((List.range 3).map (dateField sample)).map fun o => o.time.headD 0)
    [0, 1, 2] := by
  constructor
  · decide
  · decide +kernel

example : ([13, 13] : List ℤ).length < (([13, 13, 13] : List ℤ).filter (· ∈ ([13, 13] : List ℤ))).length := by
  decide

example : (mean sample true [0, 2]).1.clm 2 1 0 = 112 := by
  rw [(mean_value sample true [0, 2] 2 1 (by decide) (by decide)).1]; decide +kernel

end Verif.Harmonics
