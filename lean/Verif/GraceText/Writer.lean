import Verif.GraceText.Props

/-!
# C91: the text that `to_SHM` writes, line by line (helper lemmas)
-/
namespace Verif.GraceText
open Verif.SLR Verif.Names Verif.Input Verif.Dates Verif.HarmIO Verif.SpatialIO
open Verif.GIA (Tok)

/-! ## Numbers -/

/-- the number as a literal, with a capital E -/
def litEC (p : ℕ) (x : ℚ) : Lit where
  sgn := if x < 0 then .minus else .plus
  ip := natDigits ((sciParts p x).1 / 10 ^ p)
  fp := lastDigits p (sciParts p x).1
  ex := some (true, if (sciParts p x).2 < 0 then .minus else .plus, (expDigits (sciParts p x).2.natAbs).1,
    (expDigits (sciParts p x).2.natAbs).2)
  digits := by simp [natDigits_ne]

theorem fmtEC_eq (w p : ℕ) (x : ℚ) : ∃ k : ℕ, fmtEC w p x = List.replicate k ' ' ++ (litEC p x).chars := by
  unfold fmtEC pad
  refine ⟨_, congrArg _ ?_⟩
  unfold Lit.chars litEC
  by_cases h : x < 0 <;> by_cases h' : (sciParts p x).2 < 0 <;> simp [h, h', Sgn.chars, exChars]

theorem litEC_val (p : ℕ) (x : ℚ) : (litEC p x).val = roundSig p x := rfl

/-! ## Words -/

theorem words_blanks (k : ℕ) (cs : List Char) (ws : List (List Char)) (h : Words cs ws) :
    Words (List.replicate k ' ' ++ cs) ws := by
  induction k with
  | zero => exact h
  | succ k ih => exact .blank ' ' (by decide +kernel) ih

theorem stop_blank (cs : List Char) : Stop (' ' :: cs) := Or.inr ⟨_, _, rfl, by decide⟩

theorem dchar_space (d : Fin 10) : isSpace (dchar d) = false := by revert d; decide

theorem sgn_space (s : Sgn) : ∀ c ∈ s.chars, isSpace c = false := by cases s <;> decide

theorem lit_space (x : Lit) : x.chars ≠ [] ∧ ∀ c ∈ x.chars, isSpace c = false := by
  constructor
  · simp [Lit.chars]
  · intro c hc
    simp only [Lit.chars, List.mem_append, List.mem_cons, List.mem_map] at hc
    rcases hc with ((h | ⟨d, -, rfl⟩) | rfl | ⟨d, -, rfl⟩) | hc
    · exact sgn_space _ c h
    · exact dchar_space d
    · decide
    · exact dchar_space d
    · cases hx : x.ex with
      | none => rw [hx] at hc; exact absurd hc (by simp [exChars])
      | some e =>
        obtain ⟨cap, s, d, ds⟩ := e
        rw [hx] at hc
        simp only [exChars, List.mem_cons, List.mem_append, List.mem_map] at hc
        rcases hc with h | h | ⟨d, -, rfl⟩
        · subst h; cases cap <;> decide
        · exact sgn_space _ c h
        · exact dchar_space d

theorem digits_space (n : ℕ) : (natDigits n).map dchar ≠ [] ∧ ∀ c ∈ (natDigits n).map dchar, isSpace c = false := by
  constructor
  · simp [natDigits_ne]
  · intro c hc
    obtain ⟨d, -, rfl⟩ := List.mem_map.1 hc
    exact dchar_space d

theorem digits_isNat (n : ℕ) : IsNat ((natDigits n).map dchar) n := by
  have hd := decimal_natDigits n
  cases h : natDigits n with
  | nil => exact absurd h (natDigits_ne n)
  | cons d ds =>
    rw [h] at hd
    exact ⟨.none, d, ds, by simp [intChars, Sgn.chars], by simp [Sgn.val, hd]⟩

theorem zpad_digits (w n : ℕ) : ∀ c ∈ Dealias.zpad w n, c.isDigit = true := by
  intro c hc
  simp only [Dealias.zpad, List.mem_append, List.mem_replicate, List.mem_map] at hc
  rcases hc with ⟨-, rfl⟩ | ⟨d, -, rfl⟩
  · decide
  · exact dchar_isDigit d

theorem zpad_val (w n : ℕ) : digitsVal (Dealias.zpad w n) = n := by
  unfold Dealias.zpad
  rw [digitsVal_append, digitsVal_decimal, decimal_natDigits]
  have : ∀ k, digitsVal (List.replicate k '0') = 0 := by
    intro k
    induction k with
    | zero => rfl
    | succ k ih =>
      rw [List.replicate_succ', digitsVal_append, ih]; rfl
  rw [this]; simp

theorem digitCount_le (f n w : ℕ) (hw : 0 < w) (h : n < 10 ^ w) : digitCount f n ≤ w := by
  induction f generalizing n w with
  | zero => rw [digitCount]; omega
  | succ f ih =>
    rw [digitCount]
    split
    · exact hw
    · obtain ⟨v, rfl⟩ : ∃ v, w = v + 1 := ⟨w - 1, by omega⟩
      have hv : 0 < v := by
        rcases Nat.eq_zero_or_pos v with rfl | h'
        · simp at h; omega
        · exact h'
      rw [Nat.pow_succ] at h
      have := ih (n / 10) v hv (by omega)
      omega

theorem zpad_length (w n : ℕ) (hw : 0 < w) (h : n < 10 ^ w) : (Dealias.zpad w n).length = w := by
  have : (natDigits n).length ≤ w := by
    unfold natDigits
    rw [length_lastDigits]
    exact digitCount_le n n w hw h
  simp [Dealias.zpad]; omega

/-! ## Data lines -/

theorem intercalate_cons (a b : List Char) (xs : List (List Char)) :
    [' '].intercalate (a :: b :: xs) = a ++ ' ' :: [' '].intercalate (b :: xs) := by
  simp [List.intercalate]

theorem words_join (xs : List (ℕ × List Char)) (h : ∀ x ∈ xs, x.2 ≠ [] ∧ ∀ c ∈ x.2, isSpace c = false) :
    Words ([' '].intercalate (xs.map fun x => List.replicate x.1 ' ' ++ x.2)) (xs.map Prod.snd) := by
  induction xs with
  | nil => exact .nil
  | cons x xs ih =>
    obtain ⟨h1, h2⟩ := h x (by simp)
    have ih := ih fun y hy => h y (by simp [hy])
    cases xs with
    | nil =>
      simp only [List.map_cons, List.map_nil, List.intercalate_singleton]
      have := Words.word x.2 h1 h2 (Or.inl rfl) Words.nil
      rw [List.append_nil] at this
      exact words_blanks _ _ _ this
    | cons y xs =>
      simp only [List.map_cons] at ih ⊢
      rw [intercalate_cons, List.append_assoc]
      exact words_blanks _ _ _ (.word x.2 h1 h2 (stop_blank _) (.blank ' ' (by decide +kernel) ih))

/-- the zero that is written for the errors -/
def zeroTok : Tok := .dec ⟨.none, [0], [0, 0, 0, 0], some (true, .plus, 0, [0]), by simp⟩

theorem zeroTok_chars : zeroTok.chars = "0.0000E+00".toList := by decide

theorem zeroTok_val : zeroTok.val = 0 := by
  simp [zeroTok, Tok.val, Lit.val, decimal, Nat.ofDigits]

/-- the data line of a coefficient says so -/
theorem dataLine_says (o : Shm) (hs : ∀ c ∈ dateText o.startTime, isSpace c = false)
    (he : ∀ c ∈ dateText o.endTime, isSpace c = false) (l m : ℕ) :
    Says "GRCOF2".toList (dataLine o l m)
      (.coef l m (roundSig 12 (o.clm l m)) (roundSig 12 (o.slm l m)) 0 0) := by
  obtain ⟨k1, e1⟩ := fmtEC_eq 18 12 (o.clm l m)
  obtain ⟨k2, e2⟩ := fmtEC_eq 18 12 (o.slm l m)
  have hpre : "GRCOF2".toList <+: dataLine o l m := by
    unfold dataLine
    rw [intercalate_cons]
    exact ⟨_, rfl⟩
  have hne : ∀ t, dateText t ≠ [] := by intro t; simp [dateText]
  have hw : Words (dataLine o l m) ("GRCOF2".toList :: (natDigits l).map dchar :: (natDigits m).map dchar ::
      (Tok.dec (litEC 12 (o.clm l m))).chars :: (Tok.dec (litEC 12 (o.slm l m))).chars :: zeroTok.chars :: zeroTok.chars ::
      [dateText o.startTime, dateText o.endTime, "nnnn".toList]) := by
    have := words_join [(0, "GRCOF2".toList), (4 - ((natDigits l).map dchar).length, (natDigits l).map dchar),
      (4 - ((natDigits m).map dchar).length, (natDigits m).map dchar), (k1, (litEC 12 (o.clm l m)).chars),
      (k2, (litEC 12 (o.slm l m)).chars), (0, "0.0000E+00".toList), (0, "0.0000E+00".toList), (0, dateText o.startTime),
      (0, dateText o.endTime), (0, "nnnn".toList)] (by
        simp only [List.forall_mem_cons]
        refine ⟨by decide, digits_space l, digits_space m, lit_space _, lit_space _, by decide, by decide, ⟨hne _, hs⟩,
          ⟨hne _, he⟩, by decide, by simp⟩)
    unfold dataLine fmtD pad
    rw [e1, e2, zeroTok_chars]
    exact this
  have := Says.coef (flag := "GRCOF2".toList) _ _ _ _ l m _ _ _ _ _ hpre hw (digits_isNat l) (digits_isNat m)
  rw [zeroTok_val] at this
  exact this

/-! ## Header lines -/

/-- no line breaks and no quotation marks -/
def Clean (s : List Char) : Prop := ∀ c ∈ s, LoveText.isBreak c = false ∧ c ≠ '"'

instance (s : List Char) : Decidable (Clean s) := by unfold Clean; infer_instance

theorem clean_append (a b : List Char) (ha : Clean a) (hb : Clean b) : Clean (a ++ b) := by
  intro c hc
  rcases List.mem_append.1 hc with h | h
  · exact ha c h
  · exact hb c h

theorem clean_digits (ds : List Char) (h : ∀ c ∈ ds, c.isDigit = true) : Clean ds := by
  intro c hc
  have := h c hc
  refine ⟨?_, ?_⟩
  · cases hb : LoveText.isBreak c with
    | false => rfl
    | true =>
      simp only [LoveText.isBreak, Bool.or_eq_true, decide_eq_true_eq] at hb
      rcases hb with ((((((((hb | hb) | hb) | hb) | hb) | hb) | hb) | hb) | hb) | hb <;> subst hb <;> revert this <;> decide
  · rintro rfl; revert this; decide

theorem clean_replicate (k : ℕ) : Clean (List.replicate k ' ') := by
  intro c hc
  rw [List.eq_of_mem_replicate hc]; decide

/-- a line of the header -/
def HeadLine (x : List Char) : Prop := Clean x ∧ x.head? ≠ some 'G'

theorem headLine_two (s : List Char) (h : Clean s) : HeadLine ("  ".toList ++ s) :=
  ⟨clean_append _ _ (by decide +kernel) h, by simp⟩

theorem line2_ok (k : String) (hk : Clean k.toList) : HeadLine (line2 k) := by
  unfold line2
  rw [List.append_assoc]
  exact headLine_two _ (clean_append _ _ hk (by decide +kernel))

theorem line4_clean (k : String) (hk : Clean k.toList) : Clean (line4 k) :=
  clean_append _ _ (clean_append _ _ (by decide +kernel) (clean_append _ _ hk (clean_replicate _))) (by decide +kernel)

theorem line6_clean (k : String) (hk : Clean k.toList) : Clean (line6 k) :=
  clean_append _ _ (clean_append _ _ (by decide +kernel) (clean_append _ _ hk (clean_replicate _))) (by decide +kernel)

theorem line4_ok (k : String) (hk : Clean k.toList) : HeadLine (line4 k) :=
  ⟨line4_clean k hk, by simp [line4]⟩

theorem line4v_ok (k : String) (v : List Char) (hk : Clean k.toList) (hv : Clean v) : HeadLine (line4v k v) :=
  ⟨clean_append _ _ (clean_append _ _ (line4_clean k hk) (by decide +kernel)) hv, by simp [line4v, line4]⟩

theorem line6_ok (k : String) (hk : Clean k.toList) : HeadLine (line6 k) :=
  ⟨line6_clean k hk, by simp [line6]⟩

theorem line6v_ok (k v : String) (hk : Clean k.toList) (hv : Clean v.toList) : HeadLine (line6v k v) :=
  ⟨clean_append _ _ (clean_append _ _ (line6_clean k hk) (by decide +kernel)) hv, by simp [line6v, line6]⟩

theorem fmtD_clean (w n : ℕ) : Clean (fmtD w n) :=
  clean_append _ _ (clean_replicate _) (clean_digits _ (by
    intro c hc
    obtain ⟨d, -, rfl⟩ := List.mem_map.1 hc
    exact dchar_isDigit d))

theorem headLine_nil : HeadLine [] := ⟨by decide, by simp⟩

theorem printHeader_ok (o : Shm) : ∀ x ∈ printHeader o, HeadLine x := by
  unfold printHeader
  simp only [List.forall_mem_cons]
  refine ⟨⟨by decide, by decide⟩, line2_ok _ (by decide +kernel), line4v_ok _ _ (by decide +kernel) (fmtD_clean _ _),
    line4v_ok _ _ (by decide +kernel) (fmtD_clean _ _), headLine_nil, by simp⟩

theorem printHarmonic_ok (o : Shm) (hp : Clean o.product) : ∀ x ∈ printHarmonic o, HeadLine x := by
  unfold printHarmonic
  simp only [List.forall_mem_cons]
  refine ⟨line2_ok _ (by decide +kernel), line4v_ok _ _ (by decide +kernel) (clean_append _ _ hp (by decide +kernel)), line4_ok _ (by decide +kernel),
    line6v_ok _ _ (by decide +kernel) (by decide +kernel), line6v_ok _ _ (by decide +kernel) (by decide +kernel), line4v_ok _ _ (by decide +kernel) (by decide +kernel),
    line4_ok _ (by decide +kernel), line6v_ok _ _ (by decide +kernel) (by decide +kernel), line6v_ok _ _ (by decide +kernel) (by decide +kernel),
    line6v_ok _ _ (by decide +kernel) (by decide +kernel), line4_ok _ (by decide +kernel), line6v_ok _ _ (by decide +kernel) (by decide +kernel),
    line6v_ok _ _ (by decide +kernel) (by decide +kernel), line6v_ok _ _ (by decide +kernel) (by decide +kernel), headLine_nil, by simp⟩

theorem printVariables_ok : ∀ x ∈ printVariables, HeadLine x := by
  unfold HeadLine
  decide +kernel

/-- the products with a summary -/
def Dealiasing : List Name := ["GAA", "GAB", "GAC", "GAD"].map String.toList

theorem summary_clean' : ∀ p ∈ Dealiasing, ∀ s ∈ summaryOf p, Clean s.toList := by decide +kernel

theorem summary_some : ∀ p ∈ Dealiasing, (summaryOf p).isSome = true := by decide +kernel

theorem summary_none (p : Name) (h : p ∉ Dealiasing) : summaryOf p = none := by
  simp only [Dealiasing, List.map_cons, List.map_nil, List.mem_cons, List.not_mem_nil, or_false, not_or] at h
  unfold summaryOf
  rw [if_neg h.1, if_neg h.2.1, if_neg h.2.2.1, if_neg h.2.2.2]

theorem summary_clean (p : Name) (s : String) (h : summaryOf p = some s) : p ∈ Dealiasing ∧ Clean s.toList := by
  by_cases hp : p ∈ Dealiasing
  · exact ⟨hp, summary_clean' p hp s h⟩
  · rw [summary_none p hp] at h; cases h

theorem keywords_clean (fo : Bool) : Clean (keywordsOf fo).toList := by
  revert fo; decide +kernel

theorem institution_clean (c : Name) : Clean (institutionOf c).toList := by
  have : institutionOf c ∈ ["UT-AUSTIN/CSR", "NASA/JPL", "GFZ German Research Centre for Geosciences"] := by
    unfold institutionOf
    by_cases h1 : c = "CSR".toList
    · rw [if_pos h1]; simp
    · rw [if_neg h1]
      by_cases h2 : c = "JPL".toList
      · rw [if_pos h2]; simp
      · rw [if_neg h2]; simp
  have key : ∀ s ∈ ["UT-AUSTIN/CSR", "NASA/JPL", "GFZ German Research Centre for Geosciences"], Clean s.toList := by
    decide +kernel
  exact key _ this

/-- dates without line breaks and quotation marks -/
def CleanDate (t : Name × Name × Name) : Prop := Clean t.1 ∧ Clean t.2.1 ∧ Clean t.2.2

theorem dash_clean (t : Name × Name × Name) (h : CleanDate t) : Clean (dashText t) :=
  clean_append _ _ (clean_append _ _ (clean_append _ _ (clean_append _ _ h.1 (by decide)) h.2.1) (by decide)) h.2.2

theorem date_clean (t : Name × Name × Name) (h : CleanDate t) : Clean (dateText t) :=
  clean_append _ _ (clean_append _ _ (clean_append _ _ h.1 h.2.1) h.2.2) (by decide)

theorem ite_clean (b : Bool) (x y : String) (hx : Clean x.toList) (hy : Clean y.toList) :
    Clean (if b = true then x else y).toList := by
  cases b
  · exact hy
  · exact hx

theorem printGlobal_ok (o : Shm) (s : String) (today : List Char) (hs : Clean s.toList) (hp : Clean o.product)
    (hc : Clean o.center) (hr : Clean o.release) (ht : Clean today) (h1 : CleanDate o.startTime) (h2 : CleanDate o.endTime) :
    ∀ x ∈ printGlobal o s today, HeadLine x := by
  have hr2 : Clean (o.release.drop 2) := fun c h => hr c (List.mem_of_mem_drop h)
  unfold printGlobal
  simp only [List.forall_mem_cons]
  refine ⟨line2_ok _ (by decide), line4v_ok _ _ (by decide) ?_, line4v_ok _ _ (by decide) hs, line4v_ok _ _ (by decide) ?_,
    line4v_ok _ _ (by decide) (keywords_clean _), line4v_ok _ _ (by decide) (by decide +kernel),
    line4v_ok _ _ (by decide) (institution_clean _), line4v_ok _ _ (by decide) (clean_append _ _ (by decide) hr),
    line4v_ok _ _ (by decide) (by decide), line4v_ok _ _ (by decide) ?_,
    line4v_ok _ _ (by decide) (clean_append _ _ (by decide) hr2), line4_ok _ (by decide),
    line4v_ok _ _ (by decide) (dash_clean _ h1), line4v_ok _ _ (by decide) (dash_clean _ h2),
    line4v_ok _ _ (by decide) ht, headLine_nil, by simp⟩
  · refine clean_append _ _ (clean_append _ _ (clean_append _ _ (clean_append _ _ (clean_append _ _ (clean_append _ _ ?_
      (by decide +kernel)) hp) (by decide +kernel)) hc) (by decide +kernel)) hr
    exact ite_clean _ _ _ (by decide +kernel) (by decide +kernel)
  · exact ite_clean _ _ _ (by decide +kernel) (by decide +kernel)
  · exact ite_clean _ _ _ (by decide +kernel) (by decide +kernel)

/-- every line of the header is one -/
theorem shmHeader_ok (o : Shm) (s : String) (today : List Char) (hs : Clean s.toList) (hp : Clean o.product)
    (hc : Clean o.center) (hr : Clean o.release) (ht : Clean today) (h1 : CleanDate o.startTime) (h2 : CleanDate o.endTime) :
    ∀ x ∈ shmHeader o s today, HeadLine x := by
  intro x hx
  simp only [shmHeader, List.mem_append] at hx
  rcases hx with ((h | h) | h) | h
  · exact printHeader_ok o x h
  · exact printHarmonic_ok o hp x h
  · exact printGlobal_ok o s today hs hp hc hr ht h1 h2 x h
  · exact printVariables_ok x h

theorem headLine_says (x : List Char) (h : HeadLine x) : Says "GRCOF2".toList x .other := by
  have key : ∀ w : List Char, ¬ ('G' :: w) <+: x := by
    rintro w ⟨t, rfl⟩
    exact h.2 (by simp)
  exact .other x (key "RCOF2".toList) (key "RDOTA".toList)

/-! ## The file -/

theorem dataLine_clean (o : Shm) (h1 : CleanDate o.startTime) (h2 : CleanDate o.endTime) (l m : ℕ) :
    Clean (dataLine o l m) := by
  have hlit : ∀ x : Lit, Clean x.chars := by
    intro x c hc
    have hd : ∀ d, LoveText.isBreak (dchar d) = false ∧ dchar d ≠ '"' := by decide
    have hs : ∀ s : Sgn, ∀ c ∈ s.chars, LoveText.isBreak c = false ∧ c ≠ '"' := by
      intro s; cases s <;> decide
    simp only [Lit.chars, List.mem_append, List.mem_cons, List.mem_map] at hc
    rcases hc with ((h | ⟨d, -, rfl⟩) | rfl | ⟨d, -, rfl⟩) | hc
    · exact hs _ c h
    · exact hd d
    · decide
    · exact hd d
    · cases hx : x.ex with
      | none => rw [hx] at hc; exact absurd hc (by simp [exChars])
      | some e =>
        obtain ⟨cap, s, d, ds⟩ := e
        rw [hx] at hc
        simp only [exChars, List.mem_cons, List.mem_append, List.mem_map] at hc
        rcases hc with h | h | ⟨d, -, rfl⟩
        · subst h; cases cap <;> decide
        · exact hs _ c h
        · exact hd d
  have hnum : ∀ x, Clean (fmtEC 18 12 x) := by
    intro x
    obtain ⟨k, e⟩ := fmtEC_eq 18 12 x
    rw [e]
    exact clean_append _ _ (clean_replicate _) (hlit _)
  have hjoin : ∀ xs : List (List Char), (∀ x ∈ xs, Clean x) → Clean ([' '].intercalate xs) := by
    intro xs h
    induction xs with
    | nil => simp [Clean, List.intercalate]
    | cons x xs ih =>
      cases xs with
      | nil => simpa [List.intercalate] using h x (by simp)
      | cons y xs =>
        rw [intercalate_cons]
        exact clean_append _ _ (h x (by simp)) (clean_append [' '] _ (by decide) (ih fun z hz => h z (by simp [hz])))
  unfold dataLine
  refine hjoin _ ?_
  simp only [List.forall_mem_cons]
  exact ⟨by decide, fmtD_clean _ _, fmtD_clean _ _, hnum _, hnum _, by decide, by decide, date_clean _ h1, date_clean _ h2,
    by decide, by simp⟩

/-- what the lines of the data say -/
def shmSays (o : Shm) : List (FileLine ℚ) :=
  (List.range (o.mmax + 1)).flatMap fun m : ℕ => ((List.range (o.lmax + 1)).drop m).map fun l : ℕ =>
    .coef l m (roundSig 12 (o.clm l m)) (roundSig 12 (o.slm l m)) 0 0

theorem shmData_says (o : Shm) (hs : ∀ c ∈ dateText o.startTime, isSpace c = false)
    (he : ∀ c ∈ dateText o.endTime, isSpace c = false) : List.Forall₂ (Says "GRCOF2".toList) (shmData o) (shmSays o) := by
  unfold shmData shmSays
  generalize List.range (o.mmax + 1) = ms
  induction ms with
  | nil => exact .nil
  | cons m ms ih =>
    simp only [List.flatMap_cons]
    refine List.rel_append ?_ ih
    generalize (List.range (o.lmax + 1)).drop m = ls
    induction ls with
    | nil => exact .nil
    | cons l ls ih => exact .cons (dataLine_says o hs he l m) ih

theorem mem_shmSays (o : Shm) (x : FileLine ℚ) :
    x ∈ shmSays o ↔ ∃ l m, m ≤ o.mmax ∧ l ≤ o.lmax ∧ m ≤ l ∧
      x = .coef l m (roundSig 12 (o.clm l m)) (roundSig 12 (o.slm l m)) 0 0 := by
  unfold shmSays
  simp only [List.mem_flatMap, List.mem_range, List.mem_map]
  have hdrop : ∀ n m l : ℕ, l ∈ (List.range n).drop m ↔ m ≤ l ∧ l < n := by
    intro n m l
    rw [List.mem_iff_getElem]
    constructor
    · rintro ⟨i, hi, rfl⟩
      simp at hi ⊢; omega
    · rintro ⟨h1, h2⟩
      exact ⟨l - m, by simp; omega, by simp; omega⟩
  constructor
  · rintro ⟨m, hm, l, hl, rfl⟩
    rw [hdrop] at hl
    exact ⟨l, m, by omega, by omega, by omega, rfl⟩
  · rintro ⟨l, m, h1, h2, h3, rfl⟩
    exact ⟨m, by omega, l, (hdrop _ _ _).2 ⟨h3, by omega⟩, rfl⟩

theorem lastData_shm (o : Shm) (k : ℕ) (l m : ℕ) :
    lastData (List.replicate k FileLine.other ++ shmSays o) l m =
      if m ≤ l ∧ l ≤ o.lmax ∧ m ≤ o.mmax then some (roundSig 12 (o.clm l m), roundSig 12 (o.slm l m), 0, 0) else none := by
  unfold lastData
  have hmem : ∀ v : ℚ × ℚ × ℚ × ℚ, v ∈ (List.replicate k FileLine.other ++ shmSays o).filterMap (dataAt l m) ↔
      (m ≤ l ∧ l ≤ o.lmax ∧ m ≤ o.mmax) ∧ v = (roundSig 12 (o.clm l m), roundSig 12 (o.slm l m), 0, 0) := by
    intro v
    simp only [List.mem_filterMap, List.mem_append, List.mem_replicate]
    constructor
    · rintro ⟨x, (⟨-, rfl⟩ | hx), hv⟩
      · simp [dataAt] at hv
      · obtain ⟨l', m', h1, h2, h3, rfl⟩ := (mem_shmSays o x).1 hx
        simp only [dataAt] at hv
        split at hv
        · rename_i hlm
          obtain ⟨rfl, rfl⟩ := hlm
          cases hv
          exact ⟨⟨h3, h2, h1⟩, rfl⟩
        · cases hv
    · rintro ⟨⟨h1, h2, h3⟩, rfl⟩
      exact ⟨_, Or.inr ((mem_shmSays o _).2 ⟨l, m, h3, h2, h1, rfl⟩), by simp [dataAt]⟩
  generalize (List.replicate k FileLine.other ++ shmSays o).filterMap (dataAt l m) = vs at hmem
  cases hv : vs.getLast? with
  | none =>
    rw [List.getLast?_eq_none_iff] at hv
    subst hv
    rw [if_neg]
    intro h
    exact absurd ((hmem _).2 ⟨h, rfl⟩) (by simp)
  | some v =>
    have := (hmem v).1 (List.mem_of_getLast? hv)
    rw [if_pos this.1, this.2]

end Verif.GraceText
