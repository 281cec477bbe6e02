import Verif.SLR.Text

/-!
# Model of the numerical expression of read_GIA_model.py

`[-+]?(?:(?:\d*\.\d+)|(?:\d+\.?))(?:[Ee][+-]?\d+)?` finds integers and numbers with a decimal point.
-/
namespace Verif.GIA
open Verif.SLR

/-! ## Model -/

/-- the expression at the beginning of the text: the matched part and the rest (read_GIA_model.py:356).  Fewer digits
never help to match, so there is no backtracking but the choice of the alternative -/
def rxAt (cs : List Char) : Option (List Char × List Char) :=
  let s := (optSign cs).1
  let r := (optSign cs).2
  let ds := r.takeWhile Char.isDigit
  let r1 := r.dropWhile Char.isDigit
  let fs := if r1.head? = some '.' then r1.tail.takeWhile Char.isDigit else []
  let r2 := if r1.head? = some '.' then r1.tail.dropWhile Char.isDigit else r1
  let dot : List Char := if r1.head? = some '.' then ['.'] else []
  if ds ++ fs = [] then none
  else some (s ++ ds ++ dot ++ fs ++ (expo r2).1, (expo r2).2)

/-- `rx.findall` with fuel -/
def rxNums : ℕ → List Char → List (List Char)
  | 0, _ => []
  | _ + 1, [] => []
  | n + 1, c :: cs =>
    match rxAt (c :: cs) with
    | some (a, r) => a :: rxNums n r
    | none => rxNums n cs

/-- `rx.findall(line)`; `rx.search(line)` finds something exactly if this is not empty -/
def rxAll (cs : List Char) : List (List Char) := rxNums cs.length cs

/-- `line.replace('D','E')` -/
def dToE (cs : List Char) : List Char := cs.map fun c => if c = 'D' then 'E' else c

/-! ## Specification -/

/-- a number as written: with a decimal point, or an integer, each possibly with an exponent -/
inductive Tok where
  | dec (x : Lit)
  | int (s : Sgn) (d : Fin 10) (ds : List (Fin 10)) (ex : Option (Bool × Sgn × Fin 10 × List (Fin 10)))

/-- text of the number -/
def Tok.chars : Tok → List Char
  | .dec x => x.chars
  | .int s d ds ex => intChars s d ds ++ exChars ex

/-- its value -/
def Tok.val : Tok → ℚ
  | .dec x => x.val
  | .int s d ds ex => s.val * decimal (d :: ds) * (10 : ℚ) ^ exVal ex

/-- `Num cs ts`: the line consists of the numbers `ts` and of words without any digit, separated by blanks -/
inductive Num : List Char → List Tok → Prop
  | nil : Num [] []
  | blank {cs ts} (c : Char) : isSpace c = true → Num cs ts → Num (c :: cs) ts
  | word {cs ts} (w : List Char) : (∀ c ∈ w, c.isDigit = false ∧ isSpace c = false) → Stop cs → Num cs ts →
      Num (w ++ cs) ts
  | num {cs ts} (t : Tok) : Stop cs → Num cs ts → Num (t.chars ++ cs) (t :: ts)

/-! ## Proofs -/

theorem rxAt_tok (t : Tok) (cs : List Char) (h : Stop cs) : rxAt (t.chars ++ cs) = some (t.chars, cs) := by
  cases t with
  | dec x =>
    have h1 : optSign (x.chars ++ cs) = (x.sgn.chars, x.ip.map dchar ++ '.' :: (x.fp.map dchar ++ (exChars x.ex ++ cs))) := by
      rw [← optSign_chars x.sgn (x.ip.map dchar ++ '.' :: (x.fp.map dchar ++ (exChars x.ex ++ cs)))]
      · simp [Lit.chars]
      · apply head_digits; intro c hc; simp at hc; subst hc; decide
    have h2 := takeDigits x.ip ('.' :: (x.fp.map dchar ++ (exChars x.ex ++ cs))) (by
      intro c hc; simp at hc; subst hc; decide)
    have h3 := takeDigits x.fp (exChars x.ex ++ cs) (exChars_digit x.ex cs h)
    have hne : x.ip.map dchar ++ x.fp.map dchar ≠ [] := by
      intro h
      rw [← List.map_append, List.map_eq_nil_iff] at h
      exact x.digits h
    unfold rxAt Tok.chars
    simp only [h1, h2.1, h2.2, List.head?_cons, if_true, List.tail_cons, h3.1, h3.2, if_neg hne, expo_chars x.ex cs h]
    simp [Lit.chars]
  | int s d ds ex =>
    have hhead : ∀ c ∈ (exChars ex ++ cs).head?, c ≠ '.' := by
      intro c hc
      cases ex with
      | none =>
        rcases h with rfl | ⟨b, r, rfl, hb⟩
        · simp [exChars] at hc
        · simp [exChars] at hc; subst hc; exact (space_facts b hb).2.1
      | some e =>
        obtain ⟨cap, s', d', ds'⟩ := e
        simp [exChars] at hc; subst hc
        cases cap <;> decide
    have h1 : optSign (intChars s d ds ++ exChars ex ++ cs) = (s.chars, (d :: ds).map dchar ++ (exChars ex ++ cs)) := by
      rw [← optSign_chars s ((d :: ds).map dchar ++ (exChars ex ++ cs))]
      · simp [intChars]
      · intro c hc; simp at hc; subst hc; exact (dchar_ne d).2
    have h2 := takeDigits (d :: ds) (exChars ex ++ cs) (exChars_digit ex cs h)
    have hno : ¬ (exChars ex ++ cs).head? = some '.' := fun hc => hhead '.' (by rw [hc]; rfl) rfl
    unfold rxAt Tok.chars
    simp only [h1, h2.1, h2.2, if_neg hno, expo_chars ex cs h]
    rw [if_neg (by simp)]
    simp [intChars]

/-- nothing is matched in a word without digits -/
theorem rxAt_none (c : Char) (w cs : List Char) (hw : ∀ a ∈ c :: w, a.isDigit = false) (h : Stop cs) :
    rxAt (c :: w ++ cs) = none := by
  have key : ∀ v : List Char, (∀ a ∈ v, a.isDigit = false) →
      (v ++ cs).takeWhile Char.isDigit = [] ∧ (v ++ cs).dropWhile Char.isDigit = v ++ cs := by
    intro v hv
    cases v with
    | nil =>
      rcases h with rfl | ⟨d, r, rfl, hd⟩
      · simp
      · have := space_facts d hd; simp [this]
    | cons a t => have := hv a (by simp); simp [this]
  have main : ∀ v : List Char, (∀ a ∈ v, a.isDigit = false) →
      (v ++ cs).takeWhile Char.isDigit ++
        (if ((v ++ cs).dropWhile Char.isDigit).head? = some '.' then
          ((v ++ cs).dropWhile Char.isDigit).tail.takeWhile Char.isDigit else []) = [] := by
    intro v hv
    obtain ⟨k1, k2⟩ := key v hv
    rw [k1, k2, List.nil_append]
    split
    · rename_i hp
      cases v with
      | nil =>
        rcases h with rfl | ⟨d, r, rfl, hd⟩
        · simp at hp
        · simp at hp; exact absurd hp (space_facts d hd).2.1
      | cons a t => exact (key t fun x hx => hv x (by simp [hx])).1
    · rfl
  unfold rxAt
  by_cases hc : c = '+' ∨ c = '-'
  · have := main w fun a ha => hw a (by simp [ha])
    simp only [List.cons_append, optSign, if_pos hc]
    rw [if_pos this]
  · have := main (c :: w) hw
    simp only [List.cons_append, optSign, if_neg hc] at this ⊢
    rw [if_pos this]

theorem rxNums_word (w cs : List Char) (hw : ∀ a ∈ w, a.isDigit = false) (h : Stop cs) (n : ℕ) :
    rxNums (w.length + n) (w ++ cs) = rxNums n cs := by
  induction w with
  | nil => simp
  | cons c t ih =>
    rw [List.length_cons, show t.length + 1 + n = (t.length + n) + 1 from by omega, List.cons_append, rxNums,
      ← List.cons_append, rxAt_none c t cs hw h]
    exact ih fun a ha => hw a (by simp [ha])

theorem rxNums_num (cs : List Char) (ts : List Tok) (h : Num cs ts) :
    ∀ n, cs.length ≤ n → rxNums n cs = ts.map Tok.chars := by
  induction h with
  | nil => intro n _; cases n <;> rfl
  | @blank cs xs c hc _ ih =>
    intro n hn
    obtain ⟨k, rfl⟩ : ∃ k, n = k + 1 := ⟨n - 1, by simp at hn; omega⟩
    rw [rxNums]
    have : rxAt (c :: cs) = none := by
      have hf := space_facts c hc
      unfold rxAt
      simp [optSign, hf]
    rw [this]
    exact ih k (by simpa using hn)
  | @word cs xs w hw hs _ ih =>
    intro n hn
    rw [List.length_append] at hn
    obtain ⟨k, rfl⟩ : ∃ k, n = w.length + k := ⟨n - w.length, by omega⟩
    rw [rxNums_word w cs (fun a ha => (hw a ha).1) hs]
    exact ih k (by omega)
  | @num cs xs x hs _ ih =>
    intro n hn
    rw [List.length_append] at hn
    have hne : x.chars ≠ [] := by
      cases x with
      | dec x => simp [Tok.chars, Lit.chars]
      | int s d ds ex => simp [Tok.chars, intChars]
    obtain ⟨c, t, hc⟩ := List.exists_cons_of_ne_nil hne
    have hl : x.chars.length = t.length + 1 := by rw [hc]; rfl
    obtain ⟨k, rfl⟩ : ∃ k, n = k + 1 := ⟨n - 1, by omega⟩
    have e := rxAt_tok x cs hs
    rw [hc, List.cons_append] at e ⊢
    rw [rxNums, e]
    dsimp only
    rw [ih k (by omega), List.map_cons, hc]

/-- exactly the numbers on the line are found, in order -/
theorem rxAll_num (cs : List Char) (ts : List Tok) (h : Num cs ts) : rxAll cs = ts.map Tok.chars :=
  rxNums_num cs ts h _ le_rfl

/-- a number is read as its value -/
theorem pyFloat_tok (t : Tok) : pyFloat t.chars = some t.val := by
  cases t with
  | dec x => exact pyFloat_lit x
  | int s d ds ex =>
    have hhead : ¬ (exChars ex).head? = some '.' := by
      cases ex with
      | none => simp [exChars]
      | some e => obtain ⟨cap, s', d', ds'⟩ := e; cases cap <;> simp [exChars]
    have h1 : optSign (intChars s d ds ++ exChars ex) = (s.chars, (d :: ds).map dchar ++ exChars ex) := by
      rw [← optSign_chars s ((d :: ds).map dchar ++ exChars ex)]
      · simp [intChars]
      · intro c hc; simp at hc; subst hc; exact (dchar_ne d).2
    have h2 := takeDigits (d :: ds) (exChars ex) (by
      have := exChars_digit ex [] (Or.inl rfl); simpa using this)
    unfold pyFloat Tok.chars Tok.val
    simp only [h1, h2.1, h2.2, if_neg hhead, List.append_nil, List.length_nil]
    rw [if_neg (by simp)]
    have hx : ex = none ∨ ∃ cap s d ds, ex = some (cap, s, d, ds) := by
      cases ex with
      | none => exact Or.inl rfl
      | some e => obtain ⟨cap, s, d, ds⟩ := e; exact Or.inr ⟨cap, s, d, ds, rfl⟩
    rcases hx with rfl | ⟨cap, s', d', ds', rfl⟩
    · simp only [exChars, exVal, signVal_chars, digitsVal_decimal]
      simp
    · have hs : optSign (s'.chars ++ (d' :: ds').map dchar) = (s'.chars, (d' :: ds').map dchar) :=
        optSign_chars s' _ (by intro c hc; simp at hc; subst hc; exact (dchar_ne d').2)
      have hcap : (if cap then 'E' else 'e') = 'e' ∨ (if cap then 'E' else 'e') = 'E' := by cases cap <;> simp
      have hall : ((d' :: ds').map dchar).all Char.isDigit = true := by simp [dchar_isDigit]
      simp only [exChars, hs, hall]
      rw [if_pos ⟨hcap, by simp, trivial⟩]
      simp only [signVal_chars, exVal, digitsVal_decimal]
      simp

/-- an integer is read as its value -/
theorem pyInt_tok (s : Sgn) (d : Fin 10) (ds : List (Fin 10)) :
    pyInt (Tok.int s d ds none).chars = some (s.val * decimal (d :: ds)) := by
  simpa [Tok.chars, exChars] using pyInt_chars s d ds

end Verif.GIA
