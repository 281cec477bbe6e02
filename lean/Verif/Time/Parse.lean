import Mathlib.Data.Rat.Floor
import Mathlib.Tactic.NormNum
import Mathlib.Data.List.Basic

/-!
# C09: `parse_date_string`

Strings are lists of characters. `dateutil.parser.parse` (together with the
time-zone handling of `time.parse` and `datetime_to_list`) is the parameter
`parse`, `none` standing for its `ValueError`.
-/
namespace Verif.Time

/-- `_to_sec` (time.py:54-73): seconds per unit. -/
def toSec : List (String × ℚ) :=
  [("microseconds", 1e-6), ("microsecond", 1e-6), ("microsec", 1e-6), ("microsecs", 1e-6),
   ("milliseconds", 1e-3), ("millisecond", 1e-3), ("millisec", 1e-3), ("millisecs", 1e-3),
   ("msec", 1e-3), ("msecs", 1e-3), ("ms", 1e-3),
   ("seconds", 1), ("second", 1), ("sec", 1), ("secs", 1), ("s", 1),
   ("minutes", 60), ("minute", 60), ("min", 60), ("mins", 60),
   ("hours", 3600), ("hour", 3600), ("hr", 3600), ("hrs", 3600), ("h", 3600),
   ("day", 86400), ("days", 86400), ("d", 86400),
   ("mon", 30 * 86400), ("month", 30 * 86400), ("months", 30 * 86400),
   ("common_year", 365 * 86400), ("common_years", 365 * 86400),
   ("year", 36525 / 100 * 86400), ("years", 36525 / 100 * 86400)]

/-- white space as used by `str.split(None)` (ASCII part) -/
def isSpace (c : Char) : Bool := c = ' ' || c = '\t' || c = '\n' || c = '\r'

/-- `date_string.split(None, 2)` unpacked into three parts (time.py:151-157); `none` is the
`ValueError` of unpacking fewer parts. The remainder keeps its trailing white space. -/
def split3 (s : List Char) : Option (List Char × List Char × List Char) :=
  let s1 := s.dropWhile isSpace
  let u := s1.takeWhile (!isSpace ·)
  let s2 := (s1.dropWhile (!isSpace ·)).dropWhile isSpace
  let w := s2.takeWhile (!isSpace ·)
  let e := (s2.dropWhile (!isSpace ·)).dropWhile isSpace
  if u = [] ∨ w = [] ∨ e = [] then none else some (u, w, e)

/-- the exceptions of `parse_date_string`, all `ValueError`s -/
inductive ParseError
  | invalidFormat | unparsableEpoch | invalidUnits
deriving DecidableEq

/-- `parse_date_string` (time.py:107-139) with `split_date_string` (time.py:142-157).
`lower` maps characters, as `str.lower` does on ASCII. -/
def parseDateString {E : Type} (parse : List Char → Option E) (s : List Char) :
    Except ParseError (E × ℚ) :=
  match parse s with
  | some epoch => .ok (epoch, 0)
  | none =>
    match split3 s with
    | none => .error .invalidFormat
    | some (u, _, e) =>
      match parse e with
      | none => .error .unparsableEpoch
      | some epoch =>
        match toSec.lookup (String.ofList (u.map Char.toLower)) with
        | none => .error .invalidUnits
        | some f => .ok (epoch, f)

theorem dropWhile_block (p : Char → Bool) (a b : List Char) (ha : ∀ c ∈ a, p c = true)
    (hb : b.head?.all (fun c => !p c)) : (a ++ b).dropWhile p = b := by
  induction a with
  | nil =>
    cases b with
    | nil => rfl
    | cons c b => simp at hb; simp [hb]
  | cons x a ih =>
    simp [ha x List.mem_cons_self, ih (fun c hc => ha c (List.mem_cons_of_mem _ hc))]

theorem takeWhile_block (p : Char → Bool) (a b : List Char) (ha : ∀ c ∈ a, p c = true)
    (hb : b.head?.all (fun c => !p c)) : (a ++ b).takeWhile p = a := by
  induction a with
  | nil =>
    cases b with
    | nil => rfl
    | cons c b => simp at hb; simp [hb]
  | cons x a ih =>
    simp [ha x List.mem_cons_self, ih (fun c hc => ha c (List.mem_cons_of_mem _ hc))]

/-- A non-empty word without white space. -/
def Word (w : List Char) : Prop := w ≠ [] ∧ ∀ c ∈ w, isSpace c = false
/-- White space. -/
def Blank (b : List Char) : Prop := ∀ c ∈ b, isSpace c = true

theorem split3_spec (b0 u b1 w b2 e : List Char) (hb0 : Blank b0) (hu : Word u) (hb1 : Blank b1)
    (hn1 : b1 ≠ []) (hw : Word w) (hb2 : Blank b2) (hn2 : b2 ≠ []) (he : e ≠ [])
    (hes : ∀ c, e.head? = some c → isSpace c = false) :
    split3 (b0 ++ u ++ b1 ++ w ++ b2 ++ e) = some (u, w, e) := by
  have headNot : ∀ (x y : List Char), Word x → (x ++ y).head?.all (fun c => !isSpace c) := by
    rintro (_ | ⟨c, x⟩) y ⟨h1, h2⟩
    · exact absurd rfl h1
    · simp [h2 c List.mem_cons_self]
  have headBlank : ∀ (x y : List Char), Blank x → x ≠ [] →
      (x ++ y).head?.all (fun c => !(!isSpace c)) := by
    rintro (_ | ⟨c, x⟩) y h1 h2
    · exact absurd rfl h2
    · simp [h1 c List.mem_cons_self]
  have hE : e.head?.all (fun c => !isSpace c) := by
    cases e with
    | nil => exact absurd rfl he
    | cons c e => simp [hes c rfl]
  unfold split3
  simp only [List.append_assoc]
  rw [dropWhile_block isSpace b0 _ hb0 (headNot u _ hu),
    takeWhile_block (!isSpace ·) u _ (fun c hc => by simp [hu.2 c hc]) (headBlank b1 _ hb1 hn1),
    dropWhile_block (!isSpace ·) u _ (fun c hc => by simp [hu.2 c hc]) (headBlank b1 _ hb1 hn1),
    dropWhile_block isSpace b1 _ hb1 (headNot w _ hw),
    takeWhile_block (!isSpace ·) w _ (fun c hc => by simp [hw.2 c hc]) (headBlank b2 _ hb2 hn2),
    dropWhile_block (!isSpace ·) w _ (fun c hc => by simp [hw.2 c hc]) (headBlank b2 _ hb2 hn2),
    dropWhile_block isSpace b2 _ hb2 hE]
  rw [if_neg]
  simp [hu.1, hw.1, he]

/-- Specification: the names of units and their lengths in seconds; a month is 30 days, a year 365.25 days -/
def unitNames : List (List String × ℚ) :=
  [(["microseconds", "microsecond", "microsec", "microsecs"], 1 / 1000000),
   (["milliseconds", "millisecond", "millisec", "millisecs", "msec", "msecs", "ms"], 1 / 1000),
   (["seconds", "second", "sec", "secs", "s"], 1),
   (["minutes", "minute", "min", "mins"], 60),
   (["hours", "hour", "hr", "hrs", "h"], 60 * 60),
   (["day", "days", "d"], 24 * 60 * 60),
   (["mon", "month", "months"], 30 * 24 * 60 * 60),
   (["common_year", "common_years"], 365 * 24 * 60 * 60),
   (["year", "years"], (365 + 1 / 4) * 24 * 60 * 60)]

/-- C09: the table of units is the specified one -/
theorem toSec_table (name : String) (f : ℚ) :
    (name, f) ∈ toSec ↔ ∃ p ∈ unitNames, name ∈ p.1 ∧ f = p.2 := by
  have h : toSec = unitNames.flatMap fun p => p.1.map fun n => (n, p.2) := by decide +kernel
  rw [h, List.mem_flatMap]
  constructor
  · rintro ⟨p, hp, hm⟩
    obtain ⟨n, hn, e⟩ := List.mem_map.1 hm
    rw [Prod.mk.injEq] at e
    exact ⟨p, hp, e.1 ▸ hn, e.2.symm⟩
  · rintro ⟨p, hp, hn, rfl⟩
    exact ⟨p, hp, List.mem_map.2 ⟨name, hn, rfl⟩⟩

/-- C09: a string that is a date itself gives that date and the factor 0. -/
theorem parseDateString_exact {E : Type} (parse : List Char → Option E) (s : List Char) (d : E)
    (h : parse s = some d) : parseDateString parse s = .ok (d, 0) := by
  unfold parseDateString; rw [h]

/-- C09: "`units` `since` `epoch`" (any amount of white space, any case, any middle word) gives
the epoch and the seconds per unit; units outside the table are rejected. -/
theorem parseDateString_units {E : Type} (parse : List Char → Option E)
    (b0 u b1 w b2 e : List Char) (d : E) (hb0 : Blank b0) (hu : Word u) (hb1 : Blank b1)
    (hn1 : b1 ≠ []) (hw : Word w) (hb2 : Blank b2) (hn2 : b2 ≠ []) (he : e ≠ [])
    (hes : ∀ c, e.head? = some c → isSpace c = false)
    (hs : parse (b0 ++ u ++ b1 ++ w ++ b2 ++ e) = none) (hd : parse e = some d) :
    (∀ f, (String.ofList (u.map Char.toLower), f) ∈ toSec →
      parseDateString parse (b0 ++ u ++ b1 ++ w ++ b2 ++ e) = .ok (d, f)) ∧
    ((∀ f, (String.ofList (u.map Char.toLower), f) ∉ toSec) →
      parseDateString parse (b0 ++ u ++ b1 ++ w ++ b2 ++ e) = .error .invalidUnits) := by
  unfold parseDateString
  rw [hs, split3_spec b0 u b1 w b2 e hb0 hu hb1 hn1 hw hb2 hn2 he hes]
  simp only [hd]
  have nd : (toSec.map Prod.fst).Nodup := by decide
  have look : ∀ (l : List (String × ℚ)), (l.map Prod.fst).Nodup → ∀ k f, (k, f) ∈ l →
      l.lookup k = some f := by
    intro l
    induction l with
    | nil => intro _ k f h; simp at h
    | cons p l ih =>
      intro hnd k f h
      obtain ⟨k', f'⟩ := p
      rw [List.map_cons, List.nodup_cons] at hnd
      rcases List.mem_cons.1 h with h | h'
      · simp only [Prod.mk.injEq] at h; obtain ⟨rfl, rfl⟩ := h; simp
      · have hne : k ≠ k' := by
          rintro rfl
          exact hnd.1 (List.mem_map.2 ⟨_, h', rfl⟩)
        rw [List.lookup_cons, beq_eq_false_iff_ne.2 hne]
        exact ih hnd.2 k f h'
  have looknone : ∀ (l : List (String × ℚ)) (k : String), (∀ f, (k, f) ∉ l) →
      l.lookup k = none := by
    intro l
    induction l with
    | nil => intro k _; rfl
    | cons p l ih =>
      intro k h
      obtain ⟨k', f'⟩ := p
      have hne : k ≠ k' := by
        rintro rfl; exact h f' List.mem_cons_self
      rw [List.lookup_cons, beq_eq_false_iff_ne.2 hne]
      exact ih k (fun f hf => h f (List.mem_cons_of_mem _ hf))
  constructor
  · intro f hf; rw [look toSec nd _ f hf]
  · intro hf; rw [looknone toSec _ hf]

/-- C09: every factor of a unit is positive, so the factor 0 identifies exact dates. -/
theorem parseDateString_zero_iff {E : Type} (parse : List Char → Option E) (s : List Char) (d : E)
    (f : ℚ) (h : parseDateString parse s = .ok (d, f)) : f = 0 ↔ parse s = some d := by
  have pos : ∀ p ∈ toSec, (0:ℚ) < p.2 := by decide +kernel
  unfold parseDateString at h
  split at h
  · rename_i e he
    simp only [Except.ok.injEq, Prod.mk.injEq] at h
    rw [he, h.1]; simp [h.2]
  · rename_i he
    rw [he]
    split at h
    · simp at h
    · split at h
      · simp at h
      · split at h
        · simp at h
        · rename_i f' hf
          simp only [Except.ok.injEq, Prod.mk.injEq] at h
          obtain ⟨-, rfl⟩ := h
          obtain ⟨l₁, l₂, k, hk⟩ : ∃ l₁ l₂ k, toSec = l₁ ++ (k, f') :: l₂ := by
            have : ∀ (l : List (String × ℚ)) k f, l.lookup k = some f → ∃ k', (k', f) ∈ l := by
              intro l
              induction l with
              | nil => intro k f h; simp at h
              | cons p l ih =>
                intro k f h
                obtain ⟨k', f'⟩ := p
                rw [List.lookup_cons] at h
                split at h
                · exact ⟨k', by simp at h; simp [h]⟩
                · obtain ⟨q, hq⟩ := ih k f h
                  exact ⟨q, List.mem_cons_of_mem _ hq⟩
            obtain ⟨k', hk'⟩ := this _ _ _ hf
            obtain ⟨a, b, hab⟩ := List.append_of_mem hk'
            exact ⟨a, b, k', hab⟩
          have := pos (k, f') (by rw [hk]; simp)
          simp only at this
          simp [this.ne']

-- a parser that knows one date
example : parseDateString (fun s => if s = "2000-01-01".toList then some 42 else none)
    "  Days since   2000-01-01".toList = .ok (42, 86400) := by decide +kernel
example : parseDateString (fun s => if s = "2000-01-01".toList then some 42 else none)
    "fortnights since 2000-01-01".toList = .error .invalidUnits := by decide +kernel
example : Word "days".toList ∧ Blank " ".toList := by
  constructor
  · exact ⟨by decide, by decide⟩
  · unfold Blank; decide

end Verif.Time
