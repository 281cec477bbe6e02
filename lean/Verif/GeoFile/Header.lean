import Verif.GeoFile.Lemmas

/-!
# Lemmas: the header as a document
-/
namespace Verif.GeoFile
open Verif.SLR Verif.SpatialIO Verif.HarmIO Verif.MeanField

/-- the texts of the run have neither colon nor hash (and no line break) -/
structure Texts (f : Info) : Prop where
  PROC : Plain f.PROC
  DREL : Plain f.DREL
  MODEL : Plain f.MODEL
  citation : ∀ c, f.citation = some c → Plain c

/-- a first character -/
def startOk : Line → Bool
  | [] => false
  | c :: _ => !indicators.contains c && c != ' '

theorem textOk_of (a b : Line) (h : startOk a = true) (hp : Plain (a ++ b)) : TextOk (a ++ b) := by
  cases a with
  | nil => simp [startOk] at h
  | cons c r =>
    simp only [startOk, Bool.and_eq_true, Bool.not_eq_true', bne_iff_ne, ne_eq] at h
    exact textOk_cons c (r ++ b) hp (by simpa using h.1) h.2

theorem textOk_self (a : Line) (h : startOk a = true) (hp : Plain a) : TextOk a := by
  have := textOk_of a [] h (by simpa using hp)
  simpa using this

theorem dchar_ok : ∀ d : Fin 10, (dchar d ≠ ':' ∧ dchar d ≠ '#') ∧ dchar d ≠ ' ' ∧ dchar d ∉ indicators := by decide +kernel

theorem plain_digits (ds : List (Fin 10)) : Plain (ds.map dchar) := by
  intro c hc
  obtain ⟨d, -, rfl⟩ := List.mem_map.1 hc
  exact (dchar_ok d).1

theorem plain_replicate (n : ℕ) (c : Char) (h : c ≠ ':' ∧ c ≠ '#') : Plain (List.replicate n c) := by
  intro d hd
  rw [List.mem_replicate] at hd
  rw [hd.2]; exact h

theorem digits_cons (n : ℕ) : ∃ d ds, (natDigits n).map dchar = dchar d :: ds := by
  cases h : natDigits n with
  | nil => exact absurd h (natDigits_ne n)
  | cons d ds => exact ⟨d, ds.map dchar, rfl⟩

/-- a number behind blanks, with or without a minus sign -/
theorem textOk_number (k : ℕ) (neg : Bool) (n : ℕ) (r : Line) (hr : Plain r) :
    TextOk (List.replicate k ' ' ++ ((if neg then ['-'] else []) ++ (natDigits n).map dchar) ++ r) := by
  have hp : Plain (List.replicate k ' ' ++ ((if neg then ['-'] else []) ++ (natDigits n).map dchar) ++ r) := by
    refine plain_append (plain_append (plain_replicate _ _ (by decide)) (plain_append ?_ (plain_digits _))) hr
    cases neg <;> decide
  obtain ⟨d, ds, hd⟩ := digits_cons n
  have hl := lstrip_blanks k (((if neg then ['-'] else []) ++ (natDigits n).map dchar) ++ r)
  unfold blanks at hl
  rw [← List.append_assoc] at hl
  have hx := dchar_ok d
  cases neg with
  | false =>
    have e : ((if false = true then ['-'] else []) ++ (natDigits n).map dchar) ++ r = dchar d :: (ds ++ r) := by rw [hd]; rfl
    have hq := (textOk_cons (dchar d) (ds ++ r) (by rw [← e]; exact plain_append (plain_append (by decide) (plain_digits _)) hr) hx.2.2 hx.2.1)
    rw [e, lstrip_cons _ _ hx.2.1] at hl
    refine ⟨hp, ⟨_, _, hl, hx.2.1⟩, ?_⟩
    have := hq.2.2
    rw [lstrip_cons _ _ hx.2.1] at this
    rw [hl, this]
  | true =>
    have e : ((if true = true then ['-'] else []) ++ (natDigits n).map dchar) ++ r = '-' :: dchar d :: (ds ++ r) := by rw [hd]; rfl
    rw [e, lstrip_cons _ _ (by decide)] at hl
    refine ⟨hp, ⟨_, _, hl, by decide⟩, ?_⟩
    rw [hl]
    have h2 : (dchar d != ' ') = true := by simpa using hx.2.1
    simp [plainStart, h2]

theorem textOk_kl (kl : ℚ) : TextOk (fmtF 0 3 kl) := by
  have := textOk_number 0 (decide (kl < 0)) (scaled 3 kl / 10 ^ 3) ('.' :: (lastDigits 3 (scaled 3 kl)).map dchar)
    (plain_cons (by decide) (plain_digits _))
  unfold fmtF pad
  rw [Nat.zero_sub, List.replicate_zero, List.nil_append]
  by_cases h : kl < 0 <;> simpa [h] using this

theorem plain_num (w n : ℕ) : Plain (num w n) :=
  plain_append (plain_replicate _ _ (by decide)) (plain_digits _)

theorem textOk_month (g : ℤ) : TextOk (monthText g) := by
  have := textOk_number (4 - (((if (Verif.Time.graceToCalendar g).1 < 0 then ['-'] else []) ++
      (natDigits (Verif.Time.graceToCalendar g).1.natAbs).map dchar).length)) (decide ((Verif.Time.graceToCalendar g).1 < 0))
    (Verif.Time.graceToCalendar g).1.natAbs ('-' :: num 2 (Verif.Time.graceToCalendar g).2.toNat)
    (plain_cons (by decide) (plain_num _ _))
  unfold monthText pad
  by_cases h : (Verif.Time.graceToCalendar g).1 < 0 <;> simpa [h] using this

theorem textOk_day (d : ℕ × ℕ × ℕ) : TextOk (dayText d) := by
  unfold dayText
  have hp : Plain (num 4 d.1 ++ ('-' :: num 2 d.2.1 ++ '-' :: num 2 d.2.2)) :=
    plain_append (plain_num _ _) (plain_append (plain_cons (by decide) (plain_num _ _)) (plain_cons (by decide) (plain_num _ _)))
  have hs : startOk (num 4 d.1) = true := by
    unfold num
    cases h : 4 - (natDigits d.1).length with
    | zero =>
      obtain ⟨e, es, he⟩ := digits_cons d.1
      have hx := dchar_ok e
      rw [List.replicate_zero, List.nil_append, he]
      simp [startOk, hx.2.1, hx.2.2]
    | succ k => rw [List.replicate_succ]; rfl
  have := textOk_of _ _ hs hp
  simpa using this

theorem plain_lit (s : Line) (h : decide (Plain s) = true) : Plain s := of_decide_eq_true h

theorem plain_model (f : Info) (h : Texts f) : Plain (f.MODEL.map fun c => if c = '_' then ' ' else c) := by
  intro c hc
  obtain ⟨d, hd, rfl⟩ := List.mem_map.1 hc
  split_ifs
  · decide
  · exact h.MODEL d hd

theorem plain_citation (f : Info) (h : Texts f) : Plain (orNone f.citation) := by
  cases hc : f.citation with
  | none => exact plain_lit _ (by decide +kernel)
  | some c => exact h.citation c hc

theorem textOk_title (f : Info) (h : Texts f) :
    TextOk (mission ++ " Geocenter Coefficients ".toList ++ f.PROC ++ ' ' :: f.DREL) := by
  rw [List.append_assoc, List.append_assoc]
  refine textOk_of _ _ (by decide +kernel) (plain_append (plain_lit _ (by decide +kernel))
    (plain_append (plain_lit _ (by decide +kernel)) (plain_append h.PROC (plain_cons (by decide) h.DREL))))

theorem textOk_summary (f : Info) (h : Texts f) :
    TextOk (summary f (f.MODEL.map fun c => if c = '_' then ' ' else c)) := by
  unfold summary
  have P : ∀ s : Line, decide (Plain s) = true → Plain s := plain_lit
  simp only [List.append_assoc]
  refine textOk_of _ _ (by decide +kernel) (plain_append (P _ (by decide +kernel)) (plain_append (P _ (by decide +kernel))
    (plain_append (P _ (by decide +kernel)) (plain_append (plain_model f h) (plain_append (P _ (by decide +kernel))
    (plain_append (plain_ite (P _ (by decide +kernel)) (plain_append (P _ (by decide +kernel)) (plain_append (P _ (by decide +kernel))
      (plain_append (P _ (by decide +kernel)) (plain_cons (by decide) (plain_append h.DREL (P _ (by decide +kernel))))))))
    (plain_append (P _ (by decide +kernel)) (plain_append (plain_citation f h) (plain_append (P _ (by decide +kernel))
    (plain_ite (P _ (by decide +kernel)) (plain_ite (P _ (by decide +kernel)) plain_nil)))))))))))

theorem textOk_source (f : Info) (h : Texts f) :
    TextOk (source f (f.MODEL.map fun c => if c = '_' then ' ' else c)) := by
  unfold source
  have P : ∀ s : Line, decide (Plain s) = true → Plain s := plain_lit
  simp only [List.append_assoc]
  exact textOk_of _ _ (by decide +kernel) (plain_append (P _ (by decide +kernel)) (plain_append (P _ (by decide +kernel))
    (plain_append (P _ (by decide +kernel)) (plain_append (plain_model f h) (plain_append (P _ (by decide +kernel))
    (plain_ite (plain_append (P _ (by decide +kernel)) (plain_append h.DREL (P _ (by decide +kernel)))) plain_nil))))))

theorem textOk_project (D : Line) : TextOk (project D) := by
  unfold project
  split_ifs <;> exact textOk_self _ (by decide +kernel) (plain_lit _ (by decide +kernel))

theorem textOk_keywords (D : Line) : TextOk (keywords D) := by
  unfold keywords
  split_ifs <;> exact textOk_self _ (by decide +kernel) (plain_lit _ (by decide +kernel))

theorem textOk_ack (D : Line) : TextOk (acknowledgement D) := by
  unfold acknowledgement
  split_ifs <;> exact textOk_self _ (by decide +kernel) (plain_lit _ (by decide +kernel))

theorem textOk_version (f : Info) (h : Texts f) : TextOk ("Release-".toList ++ f.DREL.drop 2) :=
  textOk_of _ _ (by decide +kernel) (plain_append (plain_lit _ (by decide +kernel)) fun c hc => h.DREL c (List.mem_of_mem_drop hc))

/-- decidable form of `NameOk` -/
def nameOk (k : Line) : Bool :=
  k.all (fun c => c != ':' && c != '#' && c != ' ') && (match k with | [] => false | a :: _ => !indicators.contains a) &&
    decide (k.length ≤ 100)

theorem nameOk_of (k : Line) (h : nameOk k = true) : NameOk k := by
  unfold nameOk at h
  simp only [Bool.and_eq_true, decide_eq_true_eq] at h
  obtain ⟨⟨h1, h2⟩, h3⟩ := h
  refine ⟨fun c hc => ?_, ?_, h3⟩
  · have := List.all_eq_true.1 h1 c hc
    simpa [and_assoc] using this
  · cases k with
    | nil => simp at h2
    | cons a r => exact ⟨a, r, rfl, by simpa using h2⟩

end Verif.GeoFile
