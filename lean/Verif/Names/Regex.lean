import Mathlib.Tactic.Common
import Mathlib.Data.List.Basic

/-!
# Regular expressions as Python's `re` runs them

Only the constructions that the patterns for GRACE file names use: classes of characters, greedy and lazy
repetition of a class, sequences, alternatives tried from left to right, numbered groups and `$`.  A match is
searched with backtracking; `runs` lists all ways to match in the order in which they are tried, so that the first
one is the match that Python reports.  (The running time is not modelled.)
-/
namespace Verif.Names

/-! ## Model -/

/-- the part of the syntax of Python's `re` used by utilities.py:2070-2125, time.py:189-204 and time.py:291-302 -/
inductive Re where
  /-- matches the empty text -/
  | eps
  /-- `$` -/
  | eos
  /-- one character of a class -/
  | chr (p : Char → Bool)
  /-- `p*` (greedy) or `p*?` (lazy) for a class of characters -/
  | many (greedy : Bool) (p : Char → Bool)
  /-- one after the other -/
  | seq (a b : Re)
  /-- `a|b` -/
  | alt (a b : Re)
  /-- `(a)`, the group with the number `i` -/
  | grp (i : ℕ) (a : Re)

/-- what is left after a repetition, the shortest repetition first -/
def lazyRests (p : Char → Bool) : List Char → List (List Char)
  | [] => [[]]
  | c :: t => (c :: t) :: if p c = true then lazyRests p t else []

/-- captured groups and the rest of the text, for all ways to match at the beginning of the text, in the order of
the search (`$` without `re.MULTILINE` also matches before a final newline) -/
def runs : Re → List Char → List (List (ℕ × List Char) × List Char)
  | .eps, s => [([], s)]
  | .eos, s => if s = [] ∨ s = ['\n'] then [([], s)] else []
  | .chr p, s =>
    match s with
    | [] => []
    | c :: t => if p c = true then [([], t)] else []
  | .many greedy p, s =>
    let rs := if greedy = true then (lazyRests p s).reverse else lazyRests p s
    rs.map fun r => ([], r)
  | .seq a b, s => (runs a s).flatMap fun x => (runs b x.2).map fun y => (x.1 ++ y.1, y.2)
  | .alt a b, s => runs a s ++ runs b s
  | .grp i a, s => (runs a s).map fun x => ((i, s.take (s.length - x.2.length)) :: x.1, x.2)

/-- `rx.match(s)` finds something -/
def accepts (e : Re) (s : List Char) : Bool := !(runs e s).isEmpty

/-- `rx.findall(s)`: the captured groups of the matches, found from left to right -/
def findallN : ℕ → Re → List Char → List (List (ℕ × List Char))
  | 0, _, _ => []
  | n + 1, e, s =>
    match runs e s with
    | x :: _ => x.1 :: if x.2.length < s.length then findallN n e x.2 else findallN n e s.tail
    | [] => if s = [] then [] else findallN n e s.tail

/-- `rx.findall(s)` -/
def findall (e : Re) (s : List Char) : List (List (ℕ × List Char)) := findallN (s.length + 1) e s

/-- text of the group `i`; a group that took no part is `''` -/
def group (c : List (ℕ × List Char)) (i : ℕ) : List Char := (c.lookup i).getD []

/-- a literal text -/
def lit (w : List Char) : Re := w.foldr (fun c e => .seq (.chr (· == c)) e) .eps

/-- one after the other -/
def cat (es : List Re) : Re := es.foldr .seq .eps

/-- `e{n}` -/
def times (n : ℕ) (e : Re) : Re := cat (List.replicate n e)

/-- `\d` (restricted to ASCII) -/
def digit : Re := .chr Char.isDigit

/-- `\d+` -/
def digits : Re := .seq digit (.many true Char.isDigit)

/-- the class of `.` -/
def anyChar (c : Char) : Bool := c != '\n'

/-- `e?` -/
def opt (e : Re) : Re := .alt e .eps

/-- `a|b|...` -/
def oneOf : List Re → Re
  | [] => .chr fun _ => false
  | [e] => e
  | e :: es => .alt e (oneOf es)

/-! ## Specification -/

/-- the texts of a regular expression without `$` -/
def Lang : Re → List Char → Prop
  | .eps, u => u = []
  | .eos, _ => False
  | .chr p, u => ∃ c, u = [c] ∧ p c = true
  | .many _ p, u => ∀ c ∈ u, p c = true
  | .seq a b, u => ∃ v w, u = v ++ w ∧ Lang a v ∧ Lang b w
  | .alt a b, u => Lang a u ∨ Lang b u
  | .grp _ a, u => Lang a u

/-- no `$` inside -/
def NoEnd : Re → Prop
  | .eos => False
  | .seq a b => NoEnd a ∧ NoEnd b
  | .alt a b => NoEnd a ∧ NoEnd b
  | .grp _ a => NoEnd a
  | _ => True

/-! ## Proofs -/

theorem mem_lazyRests (p : Char → Bool) (s r : List Char) :
    r ∈ lazyRests p s ↔ ∃ u, s = u ++ r ∧ ∀ c ∈ u, p c = true := by
  induction s with
  | nil =>
    simp only [lazyRests, List.mem_singleton]
    constructor
    · rintro rfl; exact ⟨[], by simp⟩
    · rintro ⟨u, h, -⟩
      simp at h; exact h.2
  | cons c t ih =>
    simp only [lazyRests, List.mem_cons]
    constructor
    · rintro (rfl | h)
      · exact ⟨[], by simp⟩
      · split at h
        · rename_i hc
          obtain ⟨u, rfl, hu⟩ := ih.1 h
          exact ⟨c :: u, by simp, by simpa [hc] using hu⟩
        · simp at h
    · rintro ⟨u, h, hu⟩
      cases u with
      | nil => left; simpa using h.symm
      | cons d u =>
        simp only [List.cons_append, List.cons.injEq] at h
        obtain ⟨rfl, rfl⟩ := h
        right
        rw [if_pos (hu c (by simp))]
        exact ih.2 ⟨u, rfl, fun x hx => hu x (by simp [hx])⟩

theorem mem_runs_many (g : Bool) (p : Char → Bool) (s r : List Char) (c) :
    (c, r) ∈ runs (.many g p) s ↔ c = [] ∧ ∃ u, s = u ++ r ∧ ∀ x ∈ u, p x = true := by
  rw [← mem_lazyRests]
  cases g <;> simp [runs] <;> tauto

/-- a regular expression without `$` matches a beginning of the text exactly if the beginning is one of its texts -/
theorem runs_lang (e : Re) (he : NoEnd e) (s r : List Char) :
    (∃ c, (c, r) ∈ runs e s) ↔ ∃ u, s = u ++ r ∧ Lang e u := by
  induction e generalizing s r with
  | eps => simp [runs, Lang, eq_comm]
  | eos => exact absurd he (by simp [NoEnd])
  | chr p =>
    cases s with
    | nil => simp [runs, Lang]
    | cons d t =>
      by_cases hd : p d = true
      · simp only [runs, if_pos hd, Lang]
        constructor
        · rintro ⟨c, h⟩
          simp at h
          exact ⟨[d], by simp [h.2], d, rfl, hd⟩
        · rintro ⟨u, h, c, rfl, -⟩
          simp at h
          exact ⟨[], by simp [h.2]⟩
      · simp only [runs, if_neg hd, Lang]
        constructor
        · rintro ⟨c, h⟩; simp at h
        · rintro ⟨u, h, c, rfl, hc⟩
          simp at h
          exact absurd (h.1 ▸ hc) hd
  | many g p =>
    constructor
    · rintro ⟨c, h⟩
      exact ((mem_runs_many g p s r c).1 h).2
    · rintro h
      exact ⟨[], (mem_runs_many g p s r []).2 ⟨rfl, h⟩⟩
  | seq a b iha ihb =>
    obtain ⟨ha, hb⟩ := he
    simp only [runs, List.mem_flatMap, List.mem_map, Lang]
    constructor
    · rintro ⟨c, x, hx, y, hy, he⟩
      obtain ⟨u, hu, lu⟩ := (iha ha s x.2).1 ⟨x.1, hx⟩
      obtain ⟨v, hv, lv⟩ := (ihb hb x.2 y.2).1 ⟨y.1, hy⟩
      simp only [Prod.mk.injEq] at he
      exact ⟨u ++ v, by rw [hu, hv, he.2, List.append_assoc], u, v, rfl, lu, lv⟩
    · rintro ⟨w, hw, u, v, rfl, lu, lv⟩
      obtain ⟨c, hc⟩ := (iha ha s (v ++ r)).2 ⟨u, by rw [hw, List.append_assoc], lu⟩
      obtain ⟨d, hd⟩ := (ihb hb (v ++ r) r).2 ⟨v, rfl, lv⟩
      exact ⟨c ++ d, (c, v ++ r), hc, (d, r), hd, rfl⟩
  | alt a b iha ihb =>
    obtain ⟨ha, hb⟩ := he
    simp only [runs, List.mem_append, Lang]
    constructor
    · rintro ⟨c, h | h⟩
      · obtain ⟨u, hu, lu⟩ := (iha ha s r).1 ⟨c, h⟩
        exact ⟨u, hu, Or.inl lu⟩
      · obtain ⟨u, hu, lu⟩ := (ihb hb s r).1 ⟨c, h⟩
        exact ⟨u, hu, Or.inr lu⟩
    · rintro ⟨u, hu, lu | lu⟩
      · obtain ⟨c, hc⟩ := (iha ha s r).2 ⟨u, hu, lu⟩
        exact ⟨c, Or.inl hc⟩
      · obtain ⟨c, hc⟩ := (ihb hb s r).2 ⟨u, hu, lu⟩
        exact ⟨c, Or.inr hc⟩
  | grp i a iha =>
    simp only [runs, List.mem_map, Lang]
    rw [← iha he s r]
    constructor
    · rintro ⟨c, x, hx, h⟩
      simp only [Prod.mk.injEq] at h
      exact ⟨x.1, by rw [← h.2]; exact hx⟩
    · rintro ⟨c, h⟩
      exact ⟨_, (c, r), h, rfl⟩

theorem accepts_iff (e : Re) (s : List Char) : accepts e s = true ↔ ∃ c r, (c, r) ∈ runs e s := by
  unfold accepts
  cases h : runs e s with
  | nil => simp
  | cons x t => simp; exact ⟨x.1, x.2, by simp⟩

/-- `rx.match` of an expression without `$`: some beginning of the name is one of the texts -/
theorem accepts_prefix (e : Re) (he : NoEnd e) (s : List Char) :
    accepts e s = true ↔ ∃ u r, s = u ++ r ∧ Lang e u := by
  rw [accepts_iff]
  constructor
  · rintro ⟨c, r, h⟩
    obtain ⟨u, hu⟩ := (runs_lang e he s r).1 ⟨c, h⟩
    exact ⟨u, r, hu⟩
  · rintro ⟨u, r, hu⟩
    obtain ⟨c, h⟩ := (runs_lang e he s r).2 ⟨u, hu⟩
    exact ⟨c, r, h⟩

/-- `rx.match` of an expression with `$` at its end: the whole name, or all but a final newline, is one of the texts -/
theorem accepts_whole (e : Re) (he : NoEnd e) (s : List Char) :
    accepts (.seq e .eos) s = true ↔ ∃ u nl, s = u ++ nl ∧ (nl = [] ∨ nl = ['\n']) ∧ Lang e u := by
  rw [accepts_iff]
  simp only [runs, List.mem_flatMap, List.mem_map]
  constructor
  · rintro ⟨c, r, x, hx, y, hy, h⟩
    obtain ⟨u, hu, lu⟩ := (runs_lang e he s x.2).1 ⟨x.1, hx⟩
    refine ⟨u, x.2, hu, ?_, lu⟩
    split at hy
    · assumption
    · simp at hy
  · rintro ⟨u, nl, hs, hnl, lu⟩
    obtain ⟨c, hc⟩ := (runs_lang e he s nl).2 ⟨u, hs, lu⟩
    exact ⟨c ++ [], nl, (c, nl), hc, ([], nl), by simp [hnl], rfl⟩

theorem lang_lit (w u : List Char) : Lang (lit w) u ↔ u = w := by
  induction w generalizing u with
  | nil => simp [lit, Lang]
  | cons c w ih =>
    have : lit (c :: w) = .seq (.chr (· == c)) (lit w) := rfl
    rw [this]
    simp only [Lang, ih, beq_iff_eq]
    constructor
    · rintro ⟨v, x, rfl, ⟨d, rfl, rfl⟩, rfl⟩; rfl
    · rintro rfl; exact ⟨[c], w, rfl, ⟨c, rfl, rfl⟩, rfl⟩

theorem noEnd_lit (w : List Char) : NoEnd (lit w) := by
  induction w with
  | nil => simp [lit, NoEnd]
  | cons c w ih => exact ⟨trivial, ih⟩

theorem lang_cat_nil (u : List Char) : Lang (cat []) u ↔ u = [] := by simp [cat, Lang]

theorem lang_cat_cons (e : Re) (es : List Re) (u : List Char) :
    Lang (cat (e :: es)) u ↔ ∃ v w, u = v ++ w ∧ Lang e v ∧ Lang (cat es) w := by
  simp [cat, Lang]

theorem noEnd_cat (es : List Re) : NoEnd (cat es) ↔ ∀ e ∈ es, NoEnd e := by
  induction es with
  | nil => simp [cat, NoEnd]
  | cons e es ih =>
    have : cat (e :: es) = .seq e (cat es) := rfl
    rw [this]; simp only [NoEnd, ih, List.mem_cons, forall_eq_or_imp]

theorem lang_digits (u : List Char) : Lang digits u ↔ u ≠ [] ∧ ∀ c ∈ u, c.isDigit = true := by
  simp only [digits, digit, Lang]
  constructor
  · rintro ⟨v, w, rfl, ⟨c, rfl, hc⟩, hw⟩
    refine ⟨by simp, ?_⟩
    intro x hx
    simp at hx
    rcases hx with rfl | hx
    · exact hc
    · exact hw x hx
  · rintro ⟨h, hu⟩
    cases u with
    | nil => exact absurd rfl h
    | cons c t => exact ⟨[c], t, rfl, ⟨c, rfl, hu c (by simp)⟩, fun x hx => hu x (by simp [hx])⟩

theorem lang_opt (e : Re) (u : List Char) : Lang (opt e) u ↔ Lang e u ∨ u = [] := by simp [opt, Lang]

theorem noEnd_digits : NoEnd digits := ⟨trivial, trivial⟩

theorem lang_times_digit (n : ℕ) (u : List Char) :
    Lang (times n digit) u ↔ u.length = n ∧ ∀ c ∈ u, c.isDigit = true := by
  induction n generalizing u with
  | zero =>
    simp only [times, List.replicate_zero, lang_cat_nil, List.length_eq_zero_iff]
    constructor
    · rintro rfl; simp
    · exact fun h => h.1
  | succ n ih =>
    simp only [times, List.replicate_succ, lang_cat_cons] at ih ⊢
    constructor
    · rintro ⟨v, w, rfl, ⟨c, rfl, hc⟩, hw⟩
      obtain ⟨h1, h2⟩ := (ih w).1 hw
      refine ⟨by simp [h1], ?_⟩
      intro x hx
      simp at hx
      rcases hx with rfl | hx
      · exact hc
      · exact h2 x hx
    · rintro ⟨h1, h2⟩
      cases u with
      | nil => simp at h1
      | cons c t =>
        exact ⟨[c], t, rfl, ⟨c, rfl, h2 c (by simp)⟩, (ih t).2 ⟨by simpa using h1, fun x hx => h2 x (by simp [hx])⟩⟩

theorem noEnd_times (n : ℕ) (e : Re) (h : NoEnd e) : NoEnd (times n e) := by
  rw [times, noEnd_cat]
  intro x hx
  rw [(List.mem_replicate.1 hx).2]; exact h

theorem lang_oneOf (es : List Re) (u : List Char) : Lang (oneOf es) u ↔ ∃ e ∈ es, Lang e u := by
  induction es with
  | nil => simp [oneOf, Lang]
  | cons e es ih =>
    cases es with
    | nil => simp [oneOf]
    | cons f fs => simp only [oneOf, Lang, ih, List.mem_cons]; aesop

theorem noEnd_oneOf (es : List Re) (h : ∀ e ∈ es, NoEnd e) : NoEnd (oneOf es) := by
  induction es with
  | nil => simp [oneOf, NoEnd]
  | cons e es ih =>
    cases es with
    | nil => simpa [oneOf] using h
    | cons f fs => exact ⟨h e (by simp), ih fun x hx => h x (by simp [hx])⟩

end Verif.Names
