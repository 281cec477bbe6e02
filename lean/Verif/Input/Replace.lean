import Verif.Input.Read
import Verif.Dates.Props

/-!
# C12 low-degree replacement, C14 atmospheric jump correction
-/
set_option linter.unusedSectionVars false
namespace Verif.Input
variable {K : Type} [Field K]

/-! ## specification -/

/-- coefficient `(l,m)` of date `i` in the four arrays -/
def Fields.at (f : Fields K) (l m i : ℕ) : K × K × K × K :=
  (f.clm l m i, f.slm l m i, f.eclm l m i, f.eslm l m i)

/-- `r` is the one record of the series for month `g` -/
def IsRec (series : List (Rec K)) (g : ℤ) (r : Rec K) : Prop := series.filter (·.month = g) = [r]

/-- Month `g` needs a replacement. -/
def Needed (late : Bool) (g : ℤ) : Prop := late = true → 176 < g

instance (late : Bool) (g : ℤ) : Decidable (Needed late g) := by unfold Needed; infer_instance

/-- what a replaced coefficient looks like: record `r` for the cosine, and for the sine where the
coefficient has one -/
def replaced (sine : Bool) (old : K × K × K × K) (r : Rec K) : K × K × K × K :=
  if sine then (r.c, r.s, r.ec, r.es) else (r.c, old.2.1, r.ec, old.2.2.2)

/-! ## one stage -/

theorem put_same (a : ℕ → ℕ → ℕ → K) (l m i : ℕ) (v : K) : put a l m i v l m i = v := by
  simp [put]

theorem put_other (a : ℕ → ℕ → ℕ → K) (l m i : ℕ) (v : K) (l' m' i' : ℕ)
    (h : ¬ (l' = l ∧ m' = m ∧ i' = i)) : put a l m i v l' m' i' = a l' m' i' := by
  simp [put, h]

theorem replaceStep_spec (L M l m : ℕ) (sine late : Bool) (series : List (Rec K)) (f f' : Fields K)
    (i : ℕ) (g : ℤ) (h : replaceStep L M l m sine late series f i g = .ok f') :
    (∀ l' m' i', ¬ (l' = l ∧ m' = m ∧ i' = i) → f'.at l' m' i' = f.at l' m' i') ∧
    (¬ Needed late g → f' = f) ∧
    (Needed late g → g ∈ series.map Rec.month →
      (l ≤ L ∧ m ≤ M) ∧ ∃ r, IsRec series g r ∧ f'.at l m i = replaced sine (f.at l m i) r) := by
  unfold replaceStep at h
  simp only at h
  by_cases hc : (series.filter fun r => r.month = g).length ≠ 0 ∧ (late = true → g > 176)
  · rw [if_pos hc] at h
    split at h
    · rename_i r hr
      split_ifs at h with ht hs
      · injection h with h; subst h
        refine ⟨?_, fun hn => absurd hc.2 hn, fun _ _ => ⟨ht, r, hr, ?_⟩⟩
        · intro l' m' i' hne; simp only [Fields.at, put_other _ _ _ _ _ _ _ _ hne]
        · simp [Fields.at, replaced, put_same, hs]
      · injection h with h; subst h
        refine ⟨?_, fun hn => absurd hc.2 hn, fun _ _ => ⟨ht, r, hr, ?_⟩⟩
        · intro l' m' i' hne; simp only [Fields.at, put_other _ _ _ _ _ _ _ _ hne]
        · simp [Fields.at, replaced, put_same, hs]
    · simp at h
  · rw [if_neg hc] at h
    injection h with h; subst h
    refine ⟨fun _ _ _ _ => rfl, fun _ => rfl, ?_⟩
    intro hn hg
    exfalso; apply hc
    refine ⟨?_, hn⟩
    rw [List.mem_map] at hg
    obtain ⟨r, hr, he⟩ := hg
    intro h0
    rw [List.length_eq_zero_iff] at h0
    have : r ∈ series.filter fun r => r.month = g := by simp [hr, he]
    rw [h0] at this; simp at this

/-- a loop whose body for index `i` changes date `i` only, seen from one date -/
theorem enumLoop_spec (body : Fields K → ℕ → ℤ → Except Err (Fields K))
    (P : ℤ → ℕ → Fields K → Fields K → Prop)
    (hP : ∀ g i f0 f1 f2, (∀ l m, f1.at l m i = f2.at l m i) → P g i f0 f1 → P g i f0 f2)
    (hP0 : ∀ g i f0 f1 f2, (∀ l m, f0.at l m i = f1.at l m i) → P g i f1 f2 → P g i f0 f2)
    (hb : ∀ f i g f', body f i g = .ok f' →
      (∀ l m i', i' ≠ i → f'.at l m i' = f.at l m i') ∧ P g i f f')
    (gs : List ℤ) (f f' : Fields K) (i0 : ℕ) (h : enumLoop body f i0 gs = .ok f') :
    (∀ l m i, (i < i0 ∨ i0 + gs.length ≤ i) → f'.at l m i = f.at l m i) ∧
    ∀ k g, gs[k]? = some g → P g (i0 + k) f f' := by
  induction gs generalizing f i0 with
  | nil =>
    simp only [enumLoop, Except.ok.injEq] at h
    subst h; simp
  | cons g gs ih =>
    simp only [enumLoop] at h
    rcases h1 : body f i0 g with e | f1
    · rw [h1] at h; simp at h
    rw [h1] at h
    simp only at h
    obtain ⟨a1, a2⟩ := ih f1 (i0 + 1) h
    obtain ⟨b1, b2⟩ := hb f i0 g f1 h1
    constructor
    · intro l m i hi
      rw [a1 l m i (by simp at hi; omega), b1 l m i (by simp at hi; omega)]
    · intro k g' hk
      cases k with
      | zero =>
        simp at hk; subst hk
        exact hP _ _ _ f1 _ (fun l m => (a1 l m i0 (by omega)).symm) b2
      | succ k =>
        simp at hk
        have := a2 k g' hk
        have e : i0 + 1 + k = i0 + (k + 1) := by omega
        rw [e] at this
        exact hP0 _ _ _ f1 _ (fun l m => (b1 l m _ (by omega)).symm) this

/-- C12: a successful replacement changes only the requested coefficient; every needed month has
exactly one record in the series and gets its values (cosine, errors, and sine where there is
one); months that need no replacement are unchanged. -/
theorem replaceStage_spec (L M l m : ℕ) (sine late : Bool) (series : List (Rec K))
    (months : List ℤ) (f f' : Fields K)
    (h : replaceStage L M l m sine late series months f = .ok f') :
    (∀ l' m', ¬ (l' = l ∧ m' = m) → ∀ i, f'.at l' m' i = f.at l' m' i) ∧
    ∀ i g, months[i]? = some g →
      (¬ Needed late g → f'.at l m i = f.at l m i) ∧
      (Needed late g → ∃ r, IsRec series g r ∧ f'.at l m i = replaced sine (f.at l m i) r) := by
  unfold replaceStage at h
  simp only at h
  by_cases hm : ((if late then months.filter (· > 176) else months).filter
        fun g => g ∉ series.map Rec.month) = []
  swap
  · rw [if_pos hm] at h; simp at h
  rw [if_neg (not_not.2 hm)] at h
  have hav : ∀ g ∈ months, Needed late g → g ∈ series.map Rec.month := by
    intro g hg hn
    by_contra hc
    have : g ∈ ((if late then months.filter (· > 176) else months).filter
        fun g => g ∉ series.map Rec.month) := by
      rw [List.mem_filter]
      refine ⟨?_, by simpa using hc⟩
      split_ifs with hl
      · rw [List.mem_filter]; exact ⟨hg, by simpa using hn hl⟩
      · exact hg
    rw [hm] at this; simp at this
  have key := enumLoop_spec (replaceStep L M l m sine late series)
    (fun g i f0 f1 => (∀ l' m', ¬ (l' = l ∧ m' = m) → f1.at l' m' i = f0.at l' m' i) ∧
      (¬ Needed late g → f1.at l m i = f0.at l m i) ∧
      (Needed late g → g ∈ series.map Rec.month → ∃ r, IsRec series g r ∧
        f1.at l m i = replaced sine (f0.at l m i) r))
    (fun g i f0 f1 f2 he hp => by
      refine ⟨fun l' m' hne => by rw [← he]; exact hp.1 l' m' hne, fun hn => by
        rw [← he]; exact hp.2.1 hn, fun hn hg => ?_⟩
      obtain ⟨r, h1, h2⟩ := hp.2.2 hn hg
      exact ⟨r, h1, by rw [← he]; exact h2⟩)
    (fun g i f0 f1 f2 he hp => by
      refine ⟨fun l' m' hne => by rw [he]; exact hp.1 l' m' hne, fun hn => by
        rw [he]; exact hp.2.1 hn, fun hn hg => ?_⟩
      obtain ⟨r, h1, h2⟩ := hp.2.2 hn hg
      exact ⟨r, h1, by rw [he]; exact h2⟩)
    (fun f i g f' hb => by
      obtain ⟨s1, s2, s3⟩ := replaceStep_spec L M l m sine late series f f' i g hb
      refine ⟨fun l' m' i' hi => s1 l' m' i' (fun hh => hi hh.2.2), ?_, ?_, ?_⟩
      · intro l' m' hne; exact s1 l' m' i (fun hh => hne ⟨hh.1, hh.2.1⟩)
      · intro hn; rw [s2 hn]
      · intro hn hg; exact (s3 hn hg).2)
    months f f' 0 h
  constructor
  · intro l' m' hne i
    by_cases hi : i < months.length
    · have := (key.2 i months[i] (by simp [hi])).1 l' m' hne
      simpa using this
    · exact key.1 l' m' i (Or.inr (by omega))
  · intro i g hg
    have := key.2 i g hg
    rw [Nat.zero_add] at this
    exact ⟨this.2.1, fun hn => this.2.2 hn (hav g (List.mem_of_getElem? hg) hn)⟩

/-- C12: if a needed month has no record the call raises `IOError` naming exactly the needed
months without a record; nothing is kept silently. -/
theorem replaceStage_missing (L M l m : ℕ) (sine late : Bool) (series : List (Rec K))
    (months : List ℤ) (f : Fields K)
    (hx : ∃ g ∈ months, Needed late g ∧ g ∉ series.map Rec.month) :
    ∃ gs, replaceStage L M l m sine late series months f = .error (.ioError gs) ∧
      ∀ g, g ∈ gs ↔ g ∈ months ∧ Needed late g ∧ g ∉ series.map Rec.month := by
  have hmem : ∀ g, g ∈ ((if late then months.filter (· > 176) else months).filter
        fun g => g ∉ series.map Rec.month) ↔
      g ∈ months ∧ Needed late g ∧ g ∉ series.map Rec.month := by
    intro g
    rw [List.mem_filter]
    cases late
    · simp [Needed]
    · simp [Needed, and_assoc]
  refine ⟨_, ?_, hmem⟩
  unfold replaceStage
  simp only
  rw [if_pos]
  obtain ⟨g, hg⟩ := hx
  intro he
  have := (hmem g).2 ⟨hg.1, hg.2.1, hg.2.2⟩
  rw [he] at this; simp at this

theorem replaceStep_ok (L M l m : ℕ) (sine late : Bool) (series : List (Rec K)) (f : Fields K)
    (i : ℕ) (g : ℤ) (hl : l ≤ L) (hm : m ≤ M) (hr : Needed late g → ∃ r, IsRec series g r) :
    ∃ f', replaceStep L M l m sine late series f i g = .ok f' := by
  unfold replaceStep
  simp only
  by_cases hc : (series.filter fun r => r.month = g).length ≠ 0 ∧ (late = true → g > 176)
  · obtain ⟨r, hr⟩ := hr hc.2
    unfold IsRec at hr
    rw [if_pos hc]
    simp only [hr, hl, hm, and_self, if_true]
    cases sine <;> simp
  · rw [if_neg hc]; exact ⟨_, rfl⟩

theorem enumLoop_ok (body : Fields K → ℕ → ℤ → Except Err (Fields K)) (gs : List ℤ)
    (hb : ∀ f i, ∀ g ∈ gs, ∃ f', body f i g = .ok f') (f : Fields K) (i0 : ℕ) :
    ∃ f', enumLoop body f i0 gs = .ok f' := by
  induction gs generalizing f i0 with
  | nil => exact ⟨f, rfl⟩
  | cons g gs ih =>
    obtain ⟨f1, h1⟩ := hb f i0 g (by simp)
    obtain ⟨f', h2⟩ := ih (fun f i g hg => hb f i g (by simp [hg])) f1 (i0 + 1)
    exact ⟨f', by simp only [enumLoop, h1, h2]⟩

/-- C12: if every needed month has exactly one record and the coefficient is inside the
truncation the replacement succeeds. -/
theorem replaceStage_ok (L M l m : ℕ) (sine late : Bool) (series : List (Rec K))
    (months : List ℤ) (f : Fields K) (hl : l ≤ L) (hm : m ≤ M)
    (hr : ∀ g ∈ months, Needed late g → ∃ r, IsRec series g r) :
    ∃ f', replaceStage L M l m sine late series months f = .ok f' := by
  unfold replaceStage
  simp only
  rw [if_neg]
  · exact enumLoop_ok _ _ (fun f i g hg => replaceStep_ok L M l m sine late series f i g hl hm
      (hr g hg)) f 0
  · rw [not_not, List.filter_eq_nil_iff]
    intro g hg
    have hn : g ∈ months ∧ Needed late g := by
      cases late
      · simpa [Needed] using hg
      · simpa [Needed] using hg
    obtain ⟨r, hr⟩ := hr g hn.1 hn.2
    have : r ∈ series.filter (·.month = g) := by rw [hr]; simp
    rw [List.mem_filter] at this
    simp only [List.mem_map, not_exists, not_and, decide_eq_true_eq, not_forall, not_not]
    exact ⟨r, this.1, by simpa using this.2⟩

/-! ## degree one -/

/-- C12: without modelling, a successful degree one stage gives each month the coefficients of the
one geocenter record of its own month and changes nothing else. With modelling, months without a
record get the modelled value of their date. -/
theorem deg1Stage_spec (L M : ℕ) (model : Option (ℕ → K × K × K)) (series : List (GeoRec K))
    (months : List ℤ) (f f' : Fields K) (h : deg1Stage L M model series months f = .ok f') :
    (∀ l m, ¬ (l = 1 ∧ m = 0) → ¬ (l = 1 ∧ m = 1) → ∀ i, f'.at l m i = f.at l m i) ∧
    (∀ i, f'.slm 1 0 i = f.slm 1 0 i) ∧ f'.eclm = f.eclm ∧ f'.eslm = f.eslm ∧
    ∀ i g, months[i]? = some g →
      (∃ r, series.filter (·.month = g) = [r] ∧
        f'.clm 1 0 i = r.c10 ∧ f'.clm 1 1 i = r.c11 ∧ f'.slm 1 1 i = r.s11) ∨
      (∃ md, model = some md ∧ g ∉ series.map GeoRec.month ∧
        f'.clm 1 0 i = (md i).1 ∧ f'.clm 1 1 i = (md i).2.1 ∧ f'.slm 1 1 i = (md i).2.2) := by
  unfold deg1Stage at h
  simp only at h
  split_ifs at h with hm
  have hstep : ∀ f i g f', deg1Step L M model series f i g = .ok f' →
      (∀ l m i', i' ≠ i → f'.at l m i' = f.at l m i') ∧
      ((∀ l m, ¬ (l = 1 ∧ m = 0) → ¬ (l = 1 ∧ m = 1) → f'.at l m i = f.at l m i) ∧
      f'.slm 1 0 i = f.slm 1 0 i ∧ (∀ l m, f'.eclm l m i = f.eclm l m i) ∧
      (∀ l m, f'.eslm l m i = f.eslm l m i) ∧
      ((∃ r, series.filter (·.month = g) = [r] ∧
        f'.clm 1 0 i = r.c10 ∧ f'.clm 1 1 i = r.c11 ∧ f'.slm 1 1 i = r.s11) ∨
      (∃ md, model = some md ∧ g ∉ series.map GeoRec.month ∧
        f'.clm 1 0 i = (md i).1 ∧ f'.clm 1 1 i = (md i).2.1 ∧ f'.slm 1 1 i = (md i).2.2))) := by
    intro f i g f' hb
    unfold deg1Step at hb
    simp only at hb
    split at hb
    · rename_i md hks
      split_ifs at hb with ht
      injection hb with hb; subst hb
      refine ⟨?_, ?_, ?_, fun _ _ => rfl, fun _ _ => rfl, Or.inr ⟨md, rfl, ?_, ?_, ?_, ?_⟩⟩
      · intro l m i' hi; simp [Fields.at, put, hi]
      · intro l m h1 h2
        simp only [Fields.at, put, and_true, h1, h2, if_false]
      · simp [put]
      · intro hg
        rw [List.mem_map] at hg
        obtain ⟨r, hr, he⟩ := hg
        have : r ∈ series.filter fun r => r.month = g := by simp [hr, he]
        rw [hks] at this; simp at this
      · simp [put]
      · simp [put]
      · simp [put]
    · rename_i r hks
      split_ifs at hb with ht
      injection hb with hb; subst hb
      refine ⟨?_, ?_, ?_, fun _ _ => rfl, fun _ _ => rfl, Or.inl ⟨r, hks, ?_, ?_, ?_⟩⟩
      · intro l m i' hi; simp [Fields.at, put, hi]
      · intro l m h1 h2
        simp only [Fields.at, put, and_true, h1, h2, if_false]
      · simp [put]
      · simp [put]
      · simp [put]
      · simp [put]
    · simp at hb
  have key := enumLoop_spec (deg1Step L M model series) _ ?_ ?_ hstep months f f' 0 h
  · have hall : ∀ i, (∀ l m, ¬ (l = 1 ∧ m = 0) → ¬ (l = 1 ∧ m = 1) → f'.at l m i = f.at l m i) ∧
        f'.slm 1 0 i = f.slm 1 0 i ∧ (∀ l m, f'.eclm l m i = f.eclm l m i) ∧
        (∀ l m, f'.eslm l m i = f.eslm l m i) := by
      intro i
      by_cases hi : i < months.length
      · have := key.2 i months[i] (by simp [hi])
        rw [Nat.zero_add] at this
        exact ⟨this.1, this.2.1, this.2.2.1, this.2.2.2.1⟩
      · have := fun l m => key.1 l m i (Or.inr (by omega))
        simp only [Fields.at, Prod.mk.injEq] at this
        refine ⟨fun l m _ _ => ?_, (this 1 0).2.1, fun l m => (this l m).2.2.1,
          fun l m => (this l m).2.2.2⟩
        simp only [Fields.at, Prod.mk.injEq]; exact this l m
    refine ⟨fun l m h1 h2 i => (hall i).1 l m h1 h2, fun i => (hall i).2.1, ?_, ?_, ?_⟩
    · funext l m i; exact (hall i).2.2.1 l m
    · funext l m i; exact (hall i).2.2.2 l m
    · intro i g hg
      have := (key.2 i g hg).2.2.2.2
      rw [Nat.zero_add] at this
      exact this
  · intro g i f0 f1 f2 he hp
    simp only [Fields.at, Prod.mk.injEq] at he hp ⊢
    simp only [(he _ _).1.symm, (he _ _).2.1.symm, (he _ _).2.2.1.symm, (he _ _).2.2.2.symm]
    exact hp
  · intro g i f0 f1 f2 he hp
    simp only [Fields.at, Prod.mk.injEq] at he hp ⊢
    simp only [(he _ _).1, (he _ _).2.1, (he _ _).2.2.1, (he _ _).2.2.2]
    exact hp

/-- C12: without modelling, a month without geocenter record raises `IOError` naming exactly the
months without a record. -/
theorem deg1Stage_missing (L M : ℕ) (series : List (GeoRec K)) (months : List ℤ) (f : Fields K)
    (hx : ∃ g ∈ months, g ∉ series.map GeoRec.month) :
    ∃ gs, deg1Stage L M none series months f = .error (.ioError gs) ∧
      ∀ g, g ∈ gs ↔ g ∈ months ∧ g ∉ series.map GeoRec.month := by
  have hmem : ∀ g, g ∈ (months.filter fun g => g ∉ series.map GeoRec.month) ↔
      g ∈ months ∧ g ∉ series.map GeoRec.month := by
    intro g; rw [List.mem_filter]; simp
  refine ⟨_, ?_, hmem⟩
  unfold deg1Stage
  simp only
  rw [if_pos]
  refine ⟨rfl, ?_⟩
  obtain ⟨g, hg⟩ := hx
  intro he
  have := (hmem g).2 hg
  rw [he] at this; simp at this

/-! ## the whole sequence of stages -/

theorem optStage_ok {A : Type} (o : Option A) (stage : A → Fields K → Except Err (Fields K))
    (r : Except Err (Fields K)) (f' : Fields K) (h : optStage o stage r = .ok f') :
    ∃ f, r = .ok f ∧ ((o = none ∧ f' = f) ∨ ∃ a, o = some a ∧ stage a f = .ok f') := by
  unfold optStage at h
  cases r with
  | error e => simp at h
  | ok f =>
    refine ⟨f, rfl, ?_⟩
    cases o with
    | none => left; simp at h; exact ⟨rfl, h.symm⟩
    | some a => right; exact ⟨a, rfl, h⟩

/-- effect of one optional replacement on the whole series of fields -/
def Replaces (o : Option (List (Rec K))) (l m : ℕ) (sine late : Bool) (months : List ℤ)
    (f f' : Fields K) : Prop :=
  ∀ i g, months[i]? = some g →
    (f'.at l m i = match o with
      | none => f.at l m i
      | some series => if Needed late g then
          (match series.filter (·.month = g) with
            | r :: _ => replaced sine (f.at l m i) r
            | [] => f.at l m i) else f.at l m i) ∧
    (∀ series, o = some series → Needed late g → ∃ r, IsRec series g r)

theorem stage_effect (L M l m : ℕ) (sine late : Bool) (o : Option (List (Rec K)))
    (months : List ℤ) (r : Except Err (Fields K)) (f' : Fields K)
    (h : optStage o (fun s => replaceStage L M l m sine late s months) r = .ok f') :
    ∃ f, r = .ok f ∧ (∀ l' m', ¬ (l' = l ∧ m' = m) → ∀ i, f'.at l' m' i = f.at l' m' i) ∧
      Replaces o l m sine late months f f' := by
  obtain ⟨f, h1, h2⟩ := optStage_ok _ _ _ _ h
  refine ⟨f, h1, ?_⟩
  rcases h2 with ⟨rfl, rfl⟩ | ⟨series, rfl, h2⟩
  · exact ⟨fun _ _ _ _ => rfl, fun i g hg => ⟨rfl, by simp⟩⟩
  · obtain ⟨s1, s2⟩ := replaceStage_spec L M l m sine late series months f f' h2
    refine ⟨s1, fun i g hg => ?_⟩
    obtain ⟨a, b⟩ := s2 i g hg
    constructor
    · simp only
      split_ifs with hn
      · obtain ⟨r, hr, he⟩ := b hn
        unfold IsRec at hr
        rw [hr]; exact he
      · exact a hn
    · rintro s hs hn
      injection hs with hs; subst hs
      obtain ⟨r, hr, -⟩ := b hn
      exact ⟨r, hr⟩

/-- C12: the complete sequence of replacements (no atmospheric correction): C20 is replaced for
every month, C21/S21, C22/S22, C30, C40, C50 in the months after 176, the degree one terms in
every month; each replaced coefficient is taken from the record of its own month, and every other
coefficient of every date is what was read from the files. -/
theorem replaceAll_spec (L M : ℕ) (ds : DSet) (o : Opts K) (hatm : o.atm = none)
    (months : List ℤ) (f f' : Fields K) (h : replaceAll L M ds o months f = .ok f') :
    Replaces o.c20 2 0 false false months f f' ∧ Replaces o.cs21 2 1 true true months f f' ∧
    Replaces o.cs22 2 2 true true months f f' ∧ Replaces o.c30 3 0 false true months f f' ∧
    Replaces o.c40 4 0 false true months f f' ∧ Replaces o.c50 5 0 false true months f f' ∧
    (o.deg1 = none → ∀ l m i, l = 1 → f'.at l m i = f.at l m i) ∧
    (∀ series, o.deg1 = some series → o.model = none → ∀ i g, months[i]? = some g →
      ∃ r, series.filter (·.month = g) = [r] ∧
        f'.clm 1 0 i = r.c10 ∧ f'.clm 1 1 i = r.c11 ∧ f'.slm 1 1 i = r.s11) ∧
    (∀ l m, (l, m) ∉ [(1, 0), (1, 1), (2, 0), (2, 1), (2, 2), (3, 0), (4, 0), (5, 0)] →
      ∀ i, f'.at l m i = f.at l m i) := by
  unfold replaceAll at h
  simp only at h
  obtain ⟨f7, h7, h8⟩ := optStage_ok _ _ _ _ h
  rw [hatm] at h8
  simp only [reduceCtorEq, false_and, exists_false, or_false, true_and] at h8
  subst h8
  obtain ⟨f6, h6, e7⟩ := optStage_ok _ _ _ _ h7
  obtain ⟨f5, h5, g6, r6⟩ := stage_effect _ _ _ _ _ _ _ _ _ _ h6
  obtain ⟨f4, h4, g5, r5⟩ := stage_effect _ _ _ _ _ _ _ _ _ _ h5
  obtain ⟨f3, h3, g4, r4⟩ := stage_effect _ _ _ _ _ _ _ _ _ _ h4
  obtain ⟨f2, h2, g3, r3⟩ := stage_effect _ _ _ _ _ _ _ _ _ _ h3
  obtain ⟨f1, h1, g2, r2⟩ := stage_effect _ _ _ _ _ _ _ _ _ _ h2
  obtain ⟨f0, h0, g1, r1⟩ := stage_effect _ _ _ _ _ _ _ _ _ _ h1
  injection h0 with h0; subst h0
  have g7 : ∀ l m, ¬ l = 1 → ∀ i, f'.at l m i = f6.at l m i := by
    intro l m hl i
    rcases e7 with ⟨-, rfl⟩ | ⟨s, -, e7⟩
    · rfl
    · exact (deg1Stage_spec _ _ _ _ _ _ _ e7).1 l m (fun h => hl h.1) (fun h => hl h.1) i
  have transfer : ∀ (op : Option (List (Rec K))) l m sine late (fa fb : Fields K),
      Replaces op l m sine late months fa fb → (∀ i, fa.at l m i = f.at l m i) →
      (∀ i, f'.at l m i = fb.at l m i) → Replaces op l m sine late months f f' := by
    intro op l m sine late fa fb hr ha hb i g hg
    have := hr i g hg
    rw [← hb, ha] at this
    exact this
  refine ⟨?_, ?_, ?_, ?_, ?_, ?_, ?_, ?_, ?_⟩
  · refine transfer _ _ _ _ _ _ _ r1 (fun i => rfl) (fun i => ?_)
    rw [g7 _ _ (by decide), g6 _ _ (by decide), g5 _ _ (by decide), g4 _ _ (by decide),
      g3 _ _ (by decide), g2 _ _ (by decide)]
  · refine transfer _ _ _ _ _ _ _ r2 (fun i => ?_) (fun i => ?_)
    · rw [g1 _ _ (by decide)]
    · rw [g7 _ _ (by decide), g6 _ _ (by decide), g5 _ _ (by decide), g4 _ _ (by decide),
        g3 _ _ (by decide)]
  · refine transfer _ _ _ _ _ _ _ r3 (fun i => ?_) (fun i => ?_)
    · rw [g2 _ _ (by decide), g1 _ _ (by decide)]
    · rw [g7 _ _ (by decide), g6 _ _ (by decide), g5 _ _ (by decide), g4 _ _ (by decide)]
  · refine transfer _ _ _ _ _ _ _ r4 (fun i => ?_) (fun i => ?_)
    · rw [g3 _ _ (by decide), g2 _ _ (by decide), g1 _ _ (by decide)]
    · rw [g7 _ _ (by decide), g6 _ _ (by decide), g5 _ _ (by decide)]
  · refine transfer _ _ _ _ _ _ _ r5 (fun i => ?_) (fun i => ?_)
    · rw [g4 _ _ (by decide), g3 _ _ (by decide), g2 _ _ (by decide), g1 _ _ (by decide)]
    · rw [g7 _ _ (by decide), g6 _ _ (by decide)]
  · refine transfer _ _ _ _ _ _ _ r6 (fun i => ?_) (fun i => ?_)
    · rw [g5 _ _ (by decide), g4 _ _ (by decide), g3 _ _ (by decide), g2 _ _ (by decide),
        g1 _ _ (by decide)]
    · rw [g7 _ _ (by decide)]
  · rintro hn l m i rfl
    rcases e7 with ⟨-, rfl⟩ | ⟨s, hs, -⟩
    · rw [g6 _ _ (by omega), g5 _ _ (by omega), g4 _ _ (by omega), g3 _ _ (by omega),
        g2 _ _ (by omega), g1 _ _ (by omega)]
    · rw [hn] at hs; simp at hs
  · intro series hs hmod i g hg
    rcases e7 with ⟨hn, -⟩ | ⟨s, hs', e7⟩
    · rw [hs] at hn; simp at hn
    · rw [hs] at hs'; injection hs' with hs'; subst hs'
      rcases (deg1Stage_spec _ _ _ _ _ _ _ e7).2.2.2.2 i g hg with hr | ⟨md, hmd, -⟩
      · exact hr
      · rw [hmod] at hmd; simp at hmd
  · intro l m hlm i
    simp only [List.mem_cons, Prod.mk.injEq, List.not_mem_nil, or_false, not_or] at hlm
    obtain ⟨n1, n2, n3, n4, n5, n6, n7, n8⟩ := hlm
    have : f'.at l m i = f6.at l m i := by
      rcases e7 with ⟨-, rfl⟩ | ⟨s, -, e7⟩
      · rfl
      · exact (deg1Stage_spec _ _ _ _ _ _ _ e7).1 l m n1 n2 i
    rw [this, g6 _ _ n8, g5 _ _ n7, g4 _ _ n6, g3 _ _ n5, g2 _ _ n4, g1 _ _ n3]

/-! ## C14 -/

/-- C14: the three files cover the months 50..97, 98..161 and all later ones; earlier months have
no correction. -/
theorem corrOf_ranges (g : ℤ) :
    (corrOf g = none ↔ g < 50) ∧ (corrOf g = some .GAE ↔ 50 ≤ g ∧ g ≤ 97) ∧
    (corrOf g = some .GAF ↔ 98 ≤ g ∧ g ≤ 161) ∧ (corrOf g = some .GAG ↔ 162 ≤ g) := by
  unfold corrOf
  split_ifs <;> simp <;> omega

theorem ecmwfFile_value (L M : ℕ) (lines : List (FileLine K)) (l m : ℕ) (hl : l ≤ L) (hm : m ≤ M) :
    (ecmwfFile L M lines).1 (l, m) = ((lastData lines l m).map (·.1)).getD 0 ∧
    (ecmwfFile L M lines).2 (l, m) = ((lastData lines l m).map (·.2.1)).getD 0 := by
  unfold ecmwfFile
  suffices h : ∀ st : (ℕ × ℕ → K) × (ℕ × ℕ → K),
      (lines.foldl (fun st x => match x with
        | .coef l m c s _ _ => if l ≤ L ∧ m ≤ M then
            (Function.update st.1 (l, m) c, Function.update st.2 (l, m) s) else st
        | _ => st) st).1 (l, m) = ((lastData lines l m).map (·.1)).getD (st.1 (l, m)) ∧
      (lines.foldl (fun st x => match x with
        | .coef l m c s _ _ => if l ≤ L ∧ m ≤ M then
            (Function.update st.1 (l, m) c, Function.update st.2 (l, m) s) else st
        | _ => st) st).2 (l, m) = ((lastData lines l m).map (·.2.1)).getD (st.2 (l, m)) from
    h (fun _ => 0, fun _ => 0)
  induction lines with
  | nil => intro st; simp [lastData]
  | cons x xs ih =>
    intro st
    have e1 : lastData (x :: xs) l m = (lastData xs l m <|> dataAt l m x) :=
      getLast?_filterMap_cons _ _ _
    rw [List.foldl_cons, e1]
    cases x with
    | other => simpa [dataAt] using ih st
    | drift l' m' c s => simpa [dataAt] using ih st
    | coef l' m' c s ec es =>
      by_cases ht : l' ≤ L ∧ m' ≤ M
      · simp only [ht, and_self, if_true]
        have := ih (Function.update st.1 (l', m') c, Function.update st.2 (l', m') s)
        by_cases he : l' = l ∧ m' = m
        · obtain ⟨rfl, rfl⟩ := he
          simp only [Function.update_self] at this
          simp only [dataAt, and_self, if_true]
          cases hq : lastData xs l' m' <;> (rw [hq] at this; simpa using this)
        · have hne : (l, m) ≠ (l', m') := by
            intro hh; simp at hh; exact he ⟨hh.1.symm, hh.2.symm⟩
          simp only [Function.update_of_ne hne] at this
          simpa [dataAt, he] using this
      · simp only [ht, if_false]
        have he : ¬ (l' = l ∧ m' = m) := by rintro ⟨rfl, rfl⟩; exact ht ⟨hl, hm⟩
        simpa [dataAt, he] using ih st

/-- C14: with equal maximum degree and order the correction of each month is the field of its
file, and zero before month 50. -/
theorem readEcmwf_spec (L : ℕ) (files : Corr → List (FileLine K)) (months : List ℤ) :
    ∃ r, readEcmwf L L files months = .ok r ∧ r.length = months.length ∧
      ∀ (i : ℕ) g, months[i]? = some g → ∃ c : (ℕ × ℕ → K) × (ℕ × ℕ → K), r[i]? = some c ∧ ∀ l m, l ≤ L → m ≤ L →
        c.1 (l, m) = (match corrOf g with
          | none => (0 : K) | some k => ((lastData (files k) l m).map (·.1)).getD 0) ∧
        c.2 (l, m) = (match corrOf g with
          | none => (0 : K) | some k => ((lastData (files k) l m).map (·.2.1)).getD 0) := by
  refine ⟨_, by unfold readEcmwf; rw [if_neg (by simp)], by simp, ?_⟩
  intro i g hg
  rw [List.getElem?_map, hg]
  refine ⟨_, rfl, ?_⟩
  intro l m hl hm
  cases hk : corrOf g with
  | none => simp [hk]
  | some k => simpa [hk] using ecmwfFile_value L L (files k) l m hl hm

/-- C14 (deviation): if the maximum order differs from the maximum degree (and is not 0) and any
month needs a correction, the call fails. -/
theorem readEcmwf_order (L M : ℕ) (hML : M ≠ L) (hM : M ≠ 0) (files : Corr → List (FileLine K))
    (months : List ℤ) (g : ℤ) (hg : g ∈ months) (h50 : 50 ≤ g) :
    readEcmwf L M files months = .error .valueError := by
  unfold readEcmwf
  rw [if_pos]
  refine ⟨⟨g, hg, ?_⟩, hML, hM⟩
  rcases h : corrOf g with _ | k
  · have := (corrOf_ranges g).1.1 h; omega
  · rfl

/-- C14: GSM fields have the correction of their date removed, GAC and GAA fields have it added,
for all `m ≤ l`; other products and errors are unchanged. -/
theorem atmStage_spec (L M : ℕ) (corr : List ((ℕ × ℕ → K) × (ℕ × ℕ → K))) (f : Fields K)
    (l m i : ℕ) (hl : l ≤ L) (hm : m ≤ M) (hml : m ≤ l)
    (c : (ℕ × ℕ → K) × (ℕ × ℕ → K)) (hi : corr[i]? = some c) :
    (atmStage L M .GSM corr f).clm l m i = f.clm l m i - c.1 (l, m) ∧
    (atmStage L M .GSM corr f).slm l m i = f.slm l m i - c.2 (l, m) ∧
    (atmStage L M .GAC corr f).clm l m i = f.clm l m i + c.1 (l, m) ∧
    (atmStage L M .GAC corr f).slm l m i = f.slm l m i + c.2 (l, m) ∧
    (atmStage L M .GAA corr f).clm l m i = f.clm l m i + c.1 (l, m) ∧
    (atmStage L M .GAA corr f).slm l m i = f.slm l m i + c.2 (l, m) ∧
    atmStage L M .other corr f = f := by
  have hmem : (l, m) ∈ lmPairs L M := (mem_lmPairs L M l m).2 ⟨hml, hl, hm⟩
  simp only [atmStage, updateLoop_apply _ (lmPairs_nodup L M), hmem, if_true,
    List.getD_eq_getElem?_getD, hi, Option.getD_some, and_self]

/-- C14: removing the correction from GSM and adding it to GAC leaves the sum of both fields
unchanged at every degree, order and date. -/
theorem atm_total (L M : ℕ) (corr : List ((ℕ × ℕ → K) × (ℕ × ℕ → K))) (f f' : Fields K)
    (l m i : ℕ) :
    (atmStage L M .GSM corr f).clm l m i + (atmStage L M .GAC corr f').clm l m i =
      f.clm l m i + f'.clm l m i ∧
    (atmStage L M .GSM corr f).slm l m i + (atmStage L M .GAC corr f').slm l m i =
      f.slm l m i + f'.slm l m i := by
  simp only [atmStage, updateLoop_apply _ (lmPairs_nodup L M)]
  constructor <;> split_ifs <;> ring

/-! ## the hypotheses can be met -/

example : ∃ f', replaceStage 60 60 3 0 false true
    [⟨180, 5, 0, 1, 0⟩, ⟨181, 6, 0, 1, 0⟩, ⟨100, 1, 0, 0, 0⟩, ⟨100, 2, 0, 0, 0⟩] [100, 180, 181]
    (⟨fun _ _ _ => 0, fun _ _ _ => 0, fun _ _ _ => 0, fun _ _ _ => 0⟩ : Fields ℚ) = .ok f' := by
  apply replaceStage_ok _ _ _ _ _ _ _ _ _ (by decide) (by decide)
  intro g hg hn
  simp only [List.mem_cons, List.not_mem_nil, or_false] at hg
  have := hn rfl
  rcases hg with rfl | rfl | rfl
  · omega
  · exact ⟨_, rfl⟩
  · exact ⟨_, rfl⟩

end Verif.Input
