import Verif.MonthsIndex.Model
import Verif.MonthsIndex.Spec

/-!
# Numbers and words in the date files and in the index (lemmas)
-/
namespace Verif.MonthsIndex
open Verif.Time Verif.Dates Verif.SLR Verif.SpatialIO Verif.MonthsIndex.Spec

/-! ## Digits -/

theorem digitCount_eq (k : ℕ) : ∀ f n : ℕ, (k ≠ 0 → 10 ^ k ≤ n) → n < 10 ^ (k + 1) → n ≤ f → digitCount f n = k + 1 := by
  induction k with
  | zero =>
    intro f n _ h2 _
    cases f with
    | zero => rfl
    | succ f => rw [digitCount, if_pos (by simpa using h2)]
  | succ k ih =>
    intro f n h1 h2 hf
    have h1 := h1 (by omega)
    have h10 : 10 ^ (k + 1) = 10 * 10 ^ k := by rw [Nat.pow_succ]; omega
    have h11 : 10 ^ (k + 1 + 1) = 10 * 10 ^ (k + 1) := by rw [Nat.pow_succ]; omega
    have hp : 1 ≤ 10 ^ k := Nat.one_le_pow _ _ (by omega)
    have hn : ¬ n < 10 := by omega
    cases f with
    | zero => omega
    | succ f =>
      rw [digitCount, if_neg hn, ih f (n / 10) (fun _ => by omega) (by omega) (by omega)]

theorem natDigits_eq (k n : ℕ) (h1 : k ≠ 0 → 10 ^ k ≤ n) (h2 : n < 10 ^ (k + 1)) : natDigits n = lastDigits (k + 1) n := by
  unfold natDigits
  rw [digitCount_eq k n n h1 h2 le_rfl]

theorem lastDigits3 (n : ℕ) : (lastDigits 3 n).map dchar = d3 n := by
  simp [lastDigits, d3, Nat.div_div_eq_div_mul]

theorem lastDigits4 (n : ℕ) : (lastDigits 4 n).map dchar = d4 n := by
  simp [lastDigits, d3, d4, Nat.div_div_eq_div_mul]

theorem signText_nonneg (z : ℤ) (h : 0 ≤ z) : signText z = [] := if_neg (by omega)

theorem zeroText_d3 (z : ℤ) (h0 : 0 ≤ z) (h : z < 1000) : zeroText 3 z = d3 z.toNat := by
  obtain ⟨n, rfl⟩ := Int.eq_ofNat_of_zero_le h0
  have hn : n < 1000 := by omega
  unfold zeroText
  rw [signText_nonneg _ h0, Int.natAbs_natCast, Int.toNat_natCast, List.nil_append]
  have hz : dchar 0 = '0' := by decide
  rcases Nat.lt_or_ge n 10 with h1 | h1
  · rw [natDigits_eq 0 n (by simp) (by simpa using h1), ← lastDigits3]
    have e1 : n / 10 = 0 := by omega
    simp [lastDigits, e1, hz, List.replicate]
  rcases Nat.lt_or_ge n 100 with h2 | h2
  · rw [natDigits_eq 1 n (by simpa using h1) (by simpa using h2), ← lastDigits3]
    have e1 : n / 10 / 10 = 0 := by omega
    simp [lastDigits, e1, hz]
  · rw [natDigits_eq 2 n (by simpa using h2) (by simpa using hn), ← lastDigits3]
    simp [lastDigits]

theorem yearText_d4 (z : ℤ) (h0 : 1000 ≤ z) (h : z < 10000) : pad 4 (intText z) = d4 z.toNat := by
  obtain ⟨n, rfl⟩ := Int.eq_ofNat_of_zero_le (by omega : (0:ℤ) ≤ z)
  have hn : n < 10000 := by omega
  have hn' : 1000 ≤ n := by omega
  unfold intText
  rw [signText_nonneg _ (by omega), Int.natAbs_natCast, Int.toNat_natCast, List.nil_append,
    natDigits_eq 3 n (by simpa using hn') (by simpa using hn), lastDigits4]
  simp [pad, d4, d3]

theorem d3_length (n : ℕ) : (d3 n).length = 3 := rfl
theorem d4_length (n : ℕ) : (d4 n).length = 4 := rfl

/-! ## Integer literals -/

theorem decimal_zeros (k : ℕ) (ds : List (Fin 10)) : decimal (List.replicate k 0 ++ ds) = decimal ds := by
  rw [← digitsVal_decimal, ← digitsVal_decimal, List.map_append, digitsVal_append]
  have : digitsVal ((List.replicate k (0 : Fin 10)).map dchar) = 0 := by
    induction k with
    | zero => rfl
    | succ k ih =>
      rw [List.replicate_succ', List.map_append, digitsVal_append, ih]
      decide
  rw [this]; omega

theorem isInt_digits (z : ℤ) (k : ℕ) :
    IsInt (signText z ++ List.replicate k '0' ++ (natDigits z.natAbs).map dchar) z := by
  have hz : dchar 0 = '0' := by decide
  have hne : List.replicate k (0 : Fin 10) ++ natDigits z.natAbs ≠ [] := by simp [natDigits_ne]
  obtain ⟨d, ds, hd⟩ := List.exists_cons_of_ne_nil hne
  refine ⟨if z < 0 then .minus else .none, d, ds, ?_, ?_⟩
  · unfold intChars
    rw [← hd, List.map_append, List.map_replicate, hz]
    unfold signText
    by_cases h : z < 0 <;> simp [h, Sgn.chars]
  · rw [← hd, decimal_zeros, decimal_natDigits]
    by_cases h : z < 0
    · rw [if_pos h, Sgn.val]; omega
    · rw [if_neg h, Sgn.val]
      · omega
      · simp

theorem isInt_intText (z : ℤ) : IsInt (intText z) z := by
  have := isInt_digits z 0
  simpa [intText] using this

theorem isInt_zeroText (w : ℕ) (z : ℤ) : IsInt (zeroText w z) z := isInt_digits z _

theorem pyInt_isInt (w : Text) (z : ℤ) (h : IsInt w z) : pyInt w = some z := by
  obtain ⟨s, d, ds, rfl, rfl⟩ := h
  exact pyInt_chars s d ds

theorem isInt_word (w : Text) (z : ℤ) (h : IsInt w z) : w ≠ [] ∧ ∀ c ∈ w, isSpace c = false := by
  obtain ⟨s, d, ds, rfl, rfl⟩ := h
  refine ⟨by simp [intChars], ?_⟩
  intro c hc
  unfold intChars at hc
  rw [List.mem_append, List.mem_map] at hc
  rcases hc with hc | ⟨e, _, rfl⟩
  · cases s <;> simp [Sgn.chars] at hc <;> subst hc <;> rfl
  · exact (by decide : ∀ d : Fin 10, isSpace (dchar d) = false) e

/-! ## Words of a line -/

theorem words_blanks (k : ℕ) (cs : Text) (ws : List Text) (h : Words cs ws) : Words (List.replicate k ' ' ++ cs) ws := by
  induction k with
  | zero => exact h
  | succ k ih => rw [List.replicate_succ, List.cons_append]; exact Words.blank ' ' rfl ih

theorem words_int (w : Text) (z : ℤ) (k : ℕ) (cs : Text) (ws : List Text) (h : IsInt w z) (hs : Stop cs) (hw : Words cs ws) :
    Words (List.replicate k ' ' ++ w ++ cs) (w :: ws) := by
  rw [List.append_assoc]
  exact words_blanks k _ _ (Words.word w (isInt_word w z h).1 (isInt_word w z h).2 hs hw)

theorem words_pad (w : Text) (z : ℤ) (k : ℕ) (cs : Text) (ws : List Text) (h : IsInt w z) (hs : Stop cs) (hw : Words cs ws) :
    Words (' ' :: pad k w ++ cs) (w :: ws) := Words.blank ' ' rfl (words_int w z _ cs ws h hs hw)

theorem words_lit (p k : ℕ) (x : ℚ) (cs : Text) (ws : List Text) (hs : Stop cs) (hw : Words cs ws) :
    Words (fmtF k p x ++ cs) ((litOf p x).chars :: ws) := by
  obtain ⟨n, hn⟩ := fmtF_eq k p x
  rw [hn, List.append_assoc]
  refine words_blanks n _ _ (Words.word _ ?_ ?_ hs hw)
  · simp [Lit.chars]
  · intro c hc
    have hd : ∀ d : Fin 10, isSpace (dchar d) = false := by decide
    unfold Lit.chars litOf at hc
    simp only [exChars, List.append_nil, List.mem_append, List.mem_cons, List.mem_map] at hc
    rcases hc with (hc | ⟨d, _, rfl⟩) | rfl | ⟨d, _, rfl⟩
    · split_ifs at hc <;> simp [Sgn.chars] at hc; subst hc; rfl
    · exact hd d
    · rfl
    · exact hd d

theorem stop_blank (cs : Text) : Stop (' ' :: cs) := Or.inr ⟨' ', cs, rfl, rfl⟩

/-! ## The date file -/

/-- what the line written for a file says -/
def datedOf (mon : ℤ) (f : FileDates) : Dated := ⟨mon, f.startYr, npRound f.startDay, f.endYr, npRound f.endDay⟩

theorem datesLine_says (mon : ℤ) (f : FileDates) : Says (datesLine mon f) (datedOf mon f) := by
  refine ⟨litOf 8 (tdec f), zeroText 3 mon, intText f.startYr, zeroText 3 (npRound f.startDay), intText f.endYr,
    zeroText 3 (npRound f.endDay), intText (npRound (totDays f)), npRound (totDays f), ?_, isInt_zeroText _ _,
    isInt_intText _, isInt_zeroText _ _, isInt_intText _, isInt_zeroText _ _, isInt_intText _⟩
  have hz : ∀ z cs ws, Stop cs → Words cs ws → Words (' ' :: (zeroText 3 z ++ cs)) (zeroText 3 z :: ws) := by
    intro z cs ws hs hw
    have := words_pad (zeroText 3 z) z 0 cs ws (isInt_zeroText 3 z) hs hw
    simpa [pad] using this
  have hp : ∀ z cs ws, Stop cs → Words cs ws → Words (' ' :: (pad 8 (intText z) ++ cs)) (intText z :: ws) :=
    fun z cs ws hs hw => words_pad (intText z) z 8 cs ws (isInt_intText z) hs hw
  unfold datesLine
  simp only [List.append_assoc, List.cons_append]
  refine words_lit 8 13 _ _ _ (stop_blank _) (hz _ _ _ (stop_blank _) (hp _ _ _ (stop_blank _) (hz _ _ _ (stop_blank _)
    (hp _ _ _ (stop_blank _) (hz _ _ _ (stop_blank _) ?_)))))
  have := hp (npRound (totDays f)) [] [] (Or.inl rfl) Words.nil
  simpa using this

theorem datesFile_dated (cnes : Bool) (fs : List FileDates) :
    DateFile (datesFile cnes fs) (((months cnes fs).zip fs).map fun p => datedOf p.1 p.2) := by
  refine ⟨_, _, rfl, ?_⟩
  generalize (months cnes fs).zip fs = l
  induction l with
  | nil => exact .nil
  | cons p l ih => exact .cons (datesLine_says p.1 p.2) ih

/-- what the program keeps of a line -/
def rowOf (r : Dated) : Row := ⟨r.mon, r.y1, r.d1, r.y2, r.d2⟩

theorem readRow_says (line : Text) (r : Dated) (h : Says line r) : readRow line = some (rowOf r) := by
  obtain ⟨t, m, a, b, c, d, n, total, hw, h1, h2, h3, h4, h5, h6⟩ := h
  unfold readRow
  rw [split_words _ _ hw]
  simp only [pyFloat_lit, pyInt_isInt _ _ h1, pyInt_isInt _ _ h2, pyInt_isInt _ _ h3, pyInt_isInt _ _ h4,
    pyInt_isInt _ _ h5, pyInt_isInt _ _ h6]
  rfl

theorem loadDates_dated (file : List Text) (rows : List Dated) (h : DateFile file rows) :
    loadDates file = some (rows.map rowOf) := by
  obtain ⟨hd, body, rfl, hf⟩ := h
  unfold loadDates
  rw [List.drop_one, List.tail_cons]
  have hk : body.filter (fun l => split l ≠ []) = body := by
    rw [List.filter_eq_self]
    intro l hl
    obtain ⟨r, _, hr⟩ : ∃ r ∈ rows, Says l r := by
      induction hf with
      | nil => simp at hl
      | @cons a b as bs h1 h2 ih =>
        rcases List.mem_cons.1 hl with rfl | hl
        · exact ⟨b, by simp, h1⟩
        · obtain ⟨r, hr, h⟩ := ih hl
          exact ⟨r, by simp [hr], h⟩
    obtain ⟨t, m, a, b, c, d, n, total, hw, _⟩ := hr
    simp [split_words _ _ hw]
  rw [hk]
  induction hf with
  | nil => rfl
  | @cons a b as bs h1 h2 ih =>
    have := ih (by
      rw [List.filter_eq_self] at hk ⊢
      exact fun x hx => hk x (by simp [hx]))
    rw [List.mapM_cons, readRow_says a b h1, this]
    rfl

end Verif.MonthsIndex
