import Verif.Input.Model

/-!
# C13 reading Level-2 coefficient files
-/
set_option linter.unusedSectionVars false
namespace Verif.Input
variable {K : Type} [Field K]

/-! ## specification -/

/-- values of the data line, if it is one for degree `l` and order `m` -/
def dataAt (l m : ℕ) : FileLine K → Option (K × K × K × K)
  | .coef l' m' c s ec es => if l' = l ∧ m' = m then some (c, s, ec, es) else none
  | _ => none

/-- values of the drift line, if it is one for degree `l` and order `m` -/
def driftAt (l m : ℕ) : FileLine K → Option (K × K)
  | .drift l' m' c s => if l' = l ∧ m' = m then some (c, s) else none
  | _ => none

/-- the last data line of the file for degree `l` and order `m` -/
def lastData (lines : List (FileLine K)) (l m : ℕ) : Option (K × K × K × K) :=
  (lines.filterMap (dataAt l m)).getLast?

/-- the last drift line of the file for degree `l` and order `m` -/
def lastDrift (lines : List (FileLine K)) (l m : ℕ) : Option (K × K) :=
  (lines.filterMap (driftAt l m)).getLast?

/-- the file has no drift lines -/
def NoDrift (lines : List (FileLine K)) : Prop := ∀ l m c s, FileLine.drift l m c s ∉ lines

/-! ## the loop over the lines -/

theorem getLast?_filterMap_cons {α β : Type} (f : α → Option β) (x : α) (xs : List α) :
    ((x :: xs).filterMap f).getLast? = ((xs.filterMap f).getLast? <|> f x) := by
  rw [List.filterMap_cons]
  cases f x with
  | none => simp
  | some b =>
    simp only [List.getLast?_cons]
    cases (xs.filterMap f).getLast? <;> simp

theorem l2Lines_value (rl04 : Bool) (L M : ℕ) (lines : List (FileLine K)) (st r : L2 K)
    (h : l2Lines rl04 L M st lines = .ok r) (l m : ℕ) (hl : l ≤ L) (hm : m ≤ M) :
    r.clm (l, m) = ((lastData lines l m).map (·.1)).getD (st.clm (l, m)) ∧
    r.slm (l, m) = ((lastData lines l m).map (·.2.1)).getD (st.slm (l, m)) ∧
    r.eclm (l, m) = ((lastData lines l m).map (·.2.2.1)).getD (st.eclm (l, m)) ∧
    r.eslm (l, m) = ((lastData lines l m).map (·.2.2.2)).getD (st.eslm (l, m)) ∧
    r.driftC (l, m) = ((lastDrift lines l m).map (·.1)).getD (st.driftC (l, m)) ∧
    r.driftS (l, m) = ((lastDrift lines l m).map (·.2)).getD (st.driftS (l, m)) := by
  induction lines generalizing st with
  | nil =>
    simp only [l2Lines, Except.ok.injEq] at h
    subst h; simp [lastData, lastDrift]
  | cons x xs ih =>
    simp only [l2Lines] at h
    have e1 : lastData (x :: xs) l m = (lastData xs l m <|> dataAt l m x) :=
      getLast?_filterMap_cons _ _ _
    have e2 : lastDrift (x :: xs) l m = (lastDrift xs l m <|> driftAt l m x) :=
      getLast?_filterMap_cons _ _ _
    rw [e1, e2]
    cases x with
    | other =>
      have := ih st h
      simpa [dataAt, driftAt] using this
    | coef l' m' c s ec es =>
      have hd : driftAt l m (FileLine.coef l' m' c s ec es) = none := rfl
      by_cases ht : l' ≤ L ∧ m' ≤ M
      · simp only [l2Step, ht, and_self, if_true] at h
        have := ih _ h
        by_cases he : l' = l ∧ m' = m
        · obtain ⟨rfl, rfl⟩ := he
          simp only [Function.update_self] at this
          simp only [dataAt, and_self, if_true, hd]
          cases hq : lastData xs l' m' <;> (rw [hq] at this; simpa using this)
        · have hne : (l, m) ≠ (l', m') := by
            intro hh; simp at hh; exact he ⟨hh.1.symm, hh.2.symm⟩
          simp only [Function.update_of_ne hne] at this
          simpa [dataAt, he, hd] using this
      · simp only [l2Step, ht, if_false] at h
        have := ih _ h
        have he : ¬ (l' = l ∧ m' = m) := by rintro ⟨rfl, rfl⟩; exact ht ⟨hl, hm⟩
        simpa [dataAt, he, hd] using this
    | drift l' m' c s =>
      have hd : dataAt l m (FileLine.drift l' m' c s) = none := rfl
      cases rl04 with
      | false => simp [l2Step] at h
      | true =>
        by_cases ht : l' ≤ L ∧ m' ≤ M
        · simp only [l2Step, ht, and_self, if_true] at h
          have := ih _ h
          by_cases he : l' = l ∧ m' = m
          · obtain ⟨rfl, rfl⟩ := he
            simp only [Function.update_self] at this
            simp only [driftAt, and_self, if_true, hd]
            cases hq : lastDrift xs l' m' <;> (rw [hq] at this; simpa using this)
          · have hne : (l, m) ≠ (l', m') := by
              intro hh; simp at hh; exact he ⟨hh.1.symm, hh.2.symm⟩
            simp only [Function.update_of_ne hne] at this
            simpa [driftAt, he, hd] using this
        · simp [l2Step, ht] at h

/-- the loop succeeds exactly if every drift line is allowed and inside the truncation -/
theorem l2Lines_ok_iff (rl04 : Bool) (L M : ℕ) (lines : List (FileLine K)) (st : L2 K) :
    (∃ r, l2Lines rl04 L M st lines = .ok r) ↔
      ∀ l m c s, FileLine.drift l m c s ∈ lines → rl04 = true ∧ l ≤ L ∧ m ≤ M := by
  induction lines generalizing st with
  | nil => simp [l2Lines]
  | cons x xs ih =>
    cases x with
    | other => simp only [l2Lines, l2Step]; rw [ih]; simp
    | coef l' m' c s ec es =>
      by_cases ht : l' ≤ L ∧ m' ≤ M
      · simp only [l2Lines, l2Step, ht, and_self, if_true]; rw [ih]; simp
      · simp only [l2Lines, l2Step, ht, if_false]; rw [ih]; simp
    | drift l' m' c s =>
      cases rl04 with
      | false =>
        simp only [l2Lines, l2Step, Bool.false_eq_true, if_false]
        constructor
        · rintro ⟨r, h⟩; exact absurd h (by simp)
        · intro h; have := h l' m' c s (by simp); simp at this
      | true =>
        by_cases ht : l' ≤ L ∧ m' ≤ M
        · simp only [l2Lines, l2Step, ht, and_self, if_true]; rw [ih]
          constructor
          · intro h a b c' s' hmem
            rcases List.mem_cons.1 hmem with he | he
            · injection he with h1 h2; subst h1; subst h2; exact ⟨trivial, ht⟩
            · exact ⟨trivial, (h a b c' s' he).2⟩
          · intro h a b c' s' hmem; exact ⟨rfl, (h a b c' s' (List.mem_cons_of_mem _ hmem)).2⟩
        · simp only [l2Lines, l2Step, ht, if_false, if_true]
          constructor
          · rintro ⟨r, h⟩; exact absurd h (by simp)
          · intro h; have := h l' m' c s (by simp); exact absurd this.2 ht

/-! ## C13 -/

/-- C00 without a line is 1, every other entry 0. -/
def default00 (l m : ℕ) : K := if l = 0 ∧ m = 0 then 1 else 0

/-- C13: every entry of the output inside the truncation is the value of the last data line of
its degree and order (default: 0, and 1 for C00), plus for RL04 the drift
`(time - 2003.3) · rate`, minus the pole tide term for entry (2,1) of GSM fields if requested. -/
theorem readGrace_entry (rl4 gsm pt : Bool) (ctr : Center) (time : ℚ) (L M : ℕ)
    (lines : List (FileLine K)) (r : L2 K)
    (h : readGrace rl4 gsm pt ctr time L M lines = .ok r) (l m : ℕ) (hl : l ≤ L) (hm : m ≤ M) :
    r.clm (l, m) = ((lastData lines l m).map (·.1)).getD (default00 l m)
      + (if rl4 ∧ gsm then
          ((time - 2003.3 : ℚ) : K) * ((lastDrift lines l m).map (·.1)).getD 0 else 0)
      - (if (pt ∧ gsm) ∧ l = 2 ∧ m = 1 then (((poleTide ctr time).map (·.1)).getD 0 : ℚ) else 0 : ℚ) ∧
    r.slm (l, m) = ((lastData lines l m).map (·.2.1)).getD 0
      + (if rl4 ∧ gsm then
          ((time - 2003.3 : ℚ) : K) * ((lastDrift lines l m).map (·.2)).getD 0 else 0)
      - (if (pt ∧ gsm) ∧ l = 2 ∧ m = 1 then (((poleTide ctr time).map (·.2)).getD 0 : ℚ) else 0 : ℚ) ∧
    r.eclm (l, m) = ((lastData lines l m).map (·.2.2.1)).getD 0 ∧
    r.eslm (l, m) = ((lastData lines l m).map (·.2.2.2)).getD 0 := by
  unfold readGrace at h
  rcases hs : l2Lines (rl4 && gsm) L M l2Init lines with e | st
  · rw [hs] at h; simp at h
  rw [hs] at h
  simp only at h
  obtain ⟨v1, v2, v3, v4, v5, v6⟩ := l2Lines_value _ L M lines l2Init st hs l m hl hm
  have hinit : (l2Init : L2 K).clm (l, m) = default00 l m := by
    unfold l2Init default00
    by_cases h0 : l = 0 ∧ m = 0
    · obtain ⟨rfl, rfl⟩ := h0; simp
    · have : (l, m) ≠ (0, 0) := by simpa using h0
      simp [Function.update_of_ne this, h0]
  rw [hinit] at v1
  simp only [l2Init] at v2 v3 v4 v5 v6
  have hd : (applyDrift (rl4 && gsm) time st).clm (l, m) =
        ((lastData lines l m).map (·.1)).getD (default00 l m)
        + (if rl4 ∧ gsm then
          ((time - 2003.3 : ℚ) : K) * ((lastDrift lines l m).map (·.1)).getD 0 else 0) ∧
      (applyDrift (rl4 && gsm) time st).slm (l, m) =
        ((lastData lines l m).map (·.2.1)).getD 0
        + (if rl4 ∧ gsm then
          ((time - 2003.3 : ℚ) : K) * ((lastDrift lines l m).map (·.2)).getD 0 else 0) ∧
      (applyDrift (rl4 && gsm) time st).eclm = st.eclm ∧
      (applyDrift (rl4 && gsm) time st).eslm = st.eslm := by
    unfold applyDrift
    by_cases hb : rl4 = true ∧ gsm = true
    · obtain ⟨rfl, rfl⟩ := hb
      simp [v1, v2, v5, v6]
    · have : (rl4 && gsm) = false := by
        rcases rl4 with _ | _ <;> rcases gsm with _ | _ <;> simp_all
      simp [this, hb, v1, v2]
  obtain ⟨d1, d2, d3, d4⟩ := hd
  set w := applyDrift (rl4 && gsm) time st
  unfold applyPoleTide at h
  by_cases hb : pt = true ∧ gsm = true
  · obtain ⟨rfl, rfl⟩ := hb
    simp only [Bool.and_self, if_true] at h
    rcases hp : poleTide ctr time with _ | ⟨c, s⟩
    · rw [hp] at h
      simp only [Except.ok.injEq] at h
      subst h
      simp [d1, d2, d3, d4, v3, v4]
    · rw [hp] at h
      simp only at h
      split_ifs at h with ht
      injection h with h
      subst h
      by_cases he : l = 2 ∧ m = 1
      · obtain ⟨rfl, rfl⟩ := he
        simp [d1, d2, d3, d4, v3, v4]
      · have hne : (l, m) ≠ (2, 1) := by simpa using he
        simp [Function.update_of_ne hne, d1, d2, d3, d4, v3, v4, he]
  · have : (pt && gsm) = false := by
      rcases pt with _ | _ <;> rcases gsm with _ | _ <;> simp_all
    simp only [this] at h
    simp at h
    subst h
    simp [hb, d1, d2, d3, d4, v3, v4]

/-- C13: reading fails only for drift lines outside RL04 GSM files (`NameError`) or outside the
truncation (`IndexError`, drift lines are not checked against it), and for a pole tide correction
of a file truncated before (2,1). -/
theorem readGrace_ok_iff (rl4 gsm pt : Bool) (ctr : Center) (time : ℚ) (L M : ℕ)
    (lines : List (FileLine K)) :
    (∃ r, readGrace rl4 gsm pt ctr time L M lines = .ok r) ↔
      (∀ l m c s, FileLine.drift l m c s ∈ lines → (rl4 && gsm) = true ∧ l ≤ L ∧ m ≤ M) ∧
      ((pt && gsm) = true → ctr ≠ .other → 2 ≤ L ∧ 1 ≤ M) := by
  rw [← l2Lines_ok_iff (rl4 && gsm) L M lines l2Init]
  unfold readGrace
  rcases hs : l2Lines (rl4 && gsm) L M l2Init lines with e | st
  · simp
  · simp only [Except.ok.injEq, exists_eq', true_and]
    unfold applyPoleTide
    by_cases hb : (pt && gsm) = true
    · simp only [hb, if_true]
      cases ctr with
      | other => simp [poleTide]
      | csrJpl =>
        simp only [poleTide]
        split_ifs with ht
        · simp [ht]
        · simp; omega
      | gfz =>
        simp only [poleTide]
        split_ifs with ht
        · simp [ht]
        · simp; omega
    · simp [hb]

/-- C13: reading at a smaller truncation gives the same entries. -/
theorem readGrace_truncation (rl4 gsm pt : Bool) (ctr : Center) (time : ℚ) (L M L' M' : ℕ)
    (lines : List (FileLine K)) (r r' : L2 K)
    (h : readGrace rl4 gsm pt ctr time L M lines = .ok r)
    (h' : readGrace rl4 gsm pt ctr time L' M' lines = .ok r')
    (l m : ℕ) (hl : l ≤ L) (hl' : l ≤ L') (hm : m ≤ M) (hm' : m ≤ M') :
    r.clm (l, m) = r'.clm (l, m) ∧ r.slm (l, m) = r'.slm (l, m) ∧
    r.eclm (l, m) = r'.eclm (l, m) ∧ r.eslm (l, m) = r'.eslm (l, m) := by
  obtain ⟨a1, a2, a3, a4⟩ := readGrace_entry rl4 gsm pt ctr time L M lines r h l m hl hm
  obtain ⟨b1, b2, b3, b4⟩ := readGrace_entry rl4 gsm pt ctr time L' M' lines r' h' l m hl' hm'
  exact ⟨a1.trans b1.symm, a2.trans b2.symm, a3.trans b3.symm, a4.trans b4.symm⟩

theorem l2Lines_filter (rl04 : Bool) (L M : ℕ) (lines : List (FileLine K)) (st : L2 K) :
    l2Lines rl04 L M st (lines.filter fun x => match x with
      | .other => false
      | .coef l m _ _ _ _ => l ≤ L && m ≤ M
      | .drift _ _ _ _ => true) = l2Lines rl04 L M st lines := by
  induction lines generalizing st with
  | nil => rfl
  | cons x xs ih =>
    cases x with
    | other =>
      rw [List.filter_cons_of_neg (by simp)]
      simp only [l2Lines, l2Step]; exact ih st
    | coef l m c s ec es =>
      by_cases ht : l ≤ L ∧ m ≤ M
      · rw [List.filter_cons_of_pos (by simpa using ht)]
        simp only [l2Lines, l2Step, ht, and_self, if_true]; exact ih _
      · rw [List.filter_cons_of_neg (by simpa using ht)]
        simp only [l2Lines, l2Step, ht, if_false]; exact ih _
    | drift l m c s =>
      rw [List.filter_cons_of_pos (by simp)]
      simp only [l2Lines]
      cases hx : l2Step rl04 L M st (FileLine.drift l m c s) <;> simp only [ih]

/-- C13: data lines beyond the truncation and header lines have no influence: removing or
changing them gives the same result. -/
theorem readGrace_irrelevant (rl4 gsm pt : Bool) (ctr : Center) (time : ℚ) (L M : ℕ)
    (lines : List (FileLine K)) :
    readGrace rl4 gsm pt ctr time L M (lines.filter fun x => match x with
      | .other => false
      | .coef l m _ _ _ _ => l ≤ L && m ≤ M
      | .drift _ _ _ _ => true) = readGrace rl4 gsm pt ctr time L M lines := by
  have key : ∀ (rl04 : Bool) (st : L2 K), l2Lines rl04 L M st (lines.filter fun x => match x with
      | .other => false
      | .coef l m _ _ _ _ => l ≤ L && m ≤ M
      | .drift _ _ _ _ => true) = l2Lines rl04 L M st lines := by
    intro rl04 st
    exact l2Lines_filter rl04 L M lines st
  unfold readGrace
  rw [key]

/-- C13: the pole tide correction of GFZ is linear in the time since 2000 and vanishes then, that
of CSR and JPL from 2010 on is the GFZ correction plus the linear mean pole term. -/
theorem poleTide_csr_gfz (time : ℚ) (h : 2010 ≤ time) :
    ∃ c s c' s', poleTide .csrJpl time = some (c, s) ∧ poleTide .gfz time = some (c', s') ∧
      c' = (1.551e-9 * 0.62e-3 - 0.012e-9 * 3.48e-3) * (time - 2000) ∧
      s' = (-0.021e-9 * 0.62e-3 - 1.505e-9 * 3.48e-3) * (time - 2000) ∧
      c - c' = -1.551e-9 * (0.023513 + 7.6141e-3 * (time - 2000))
        - 0.012e-9 * (-0.358891 + 0.6287e-3 * (time - 2000)) ∧
      s - s' = 0.021e-9 * (0.023513 + 7.6141e-3 * (time - 2000))
        - 1.505e-9 * (-0.358891 + 0.6287e-3 * (time - 2000)) := by
  refine ⟨_, _, _, _, rfl, rfl, ?_, ?_, ?_, ?_⟩ <;>
    simp [meanPole, not_lt.2 h] <;> ring

/-- C13: before 2010 the mean pole of CSR and JPL is the cubic of the IERS conventions -/
theorem poleTide_csr_before (time : ℚ) (h : time < 2010) :
    ∃ c s c' s', poleTide .csrJpl time = some (c, s) ∧ poleTide .gfz time = some (c', s') ∧
      c - c' = -1.551e-9 * (0.055974 + 1.8243e-3 * (time - 2000) + 1.8413e-4 * (time - 2000) ^ 2
          + 7.024e-6 * (time - 2000) ^ 3)
        - 0.012e-9 * (-0.346346 - 1.7896e-3 * (time - 2000) + 1.0729e-4 * (time - 2000) ^ 2
          + 0.908e-6 * (time - 2000) ^ 3) ∧
      s - s' = 0.021e-9 * (0.055974 + 1.8243e-3 * (time - 2000) + 1.8413e-4 * (time - 2000) ^ 2
          + 7.024e-6 * (time - 2000) ^ 3)
        - 1.505e-9 * (-0.346346 - 1.7896e-3 * (time - 2000) + 1.0729e-4 * (time - 2000) ^ 2
          + 0.908e-6 * (time - 2000) ^ 3) := by
  refine ⟨_, _, _, _, rfl, rfl, ?_, ?_⟩ <;>
    simp [meanPole, h] <;> ring

/-! ## the hypotheses can be met -/

/-- a small file with a repeated line, a line beyond the truncation and a drift line -/
def sampleFile : List (FileLine ℚ) :=
  [.other, .coef 2 0 5 0 1 1, .coef 3 1 7 8 1 1, .coef 2 0 6 0 1 1, .coef 90 0 9 9 9 9,
   .drift 2 0 10 0]

example : ∃ r, readGrace true true true .csrJpl 2004.3 60 60 sampleFile = .ok r := by
  rw [readGrace_ok_iff]
  refine ⟨?_, fun _ _ => by decide⟩
  intro l m c s h
  simp only [sampleFile, List.mem_cons, reduceCtorEq, false_or, List.not_mem_nil, or_false,
    FileLine.drift.injEq] at h
  obtain ⟨rfl, rfl, -, -⟩ := h
  decide

example : lastData sampleFile 2 0 = some (6, 0, 1, 1) := by decide +kernel

end Verif.Input
