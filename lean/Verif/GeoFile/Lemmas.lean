import Verif.GeoFile.Model
import Mathlib.Tactic.SplitIfs

/-!
# Lemmas: lines of the header
-/
namespace Verif.GeoFile
open Verif.SLR Verif.SpatialIO Verif.HarmIO Verif.MeanField

/-- neither colon nor hash -/
def Plain (t : Line) : Prop := ∀ c ∈ t, c ≠ ':' ∧ c ≠ '#'

instance (t : Line) : Decidable (Plain t) := by unfold Plain; infer_instance

theorem plain_append {a b : Line} (ha : Plain a) (hb : Plain b) : Plain (a ++ b) := by
  intro c hc
  rcases List.mem_append.1 hc with h | h
  exacts [ha c h, hb c h]

theorem plain_cons {a : Char} {b : Line} (ha : a ≠ ':' ∧ a ≠ '#') (hb : Plain b) : Plain (a :: b) := by
  intro c hc
  rcases List.mem_cons.1 hc with h | h
  exacts [h ▸ ha, hb c h]

theorem plain_nil : Plain [] := by intro c hc; simp at hc

theorem plain_ite {p : Prop} [Decidable p] {a b : Line} (ha : Plain a) (hb : Plain b) : Plain (if p then a else b) := by
  split_ifs <;> assumption

theorem uncomment_id : ∀ (b : Bool) (l : Line), (∀ c ∈ l, c ≠ '#') → uncomment b l = l
  | _, [], _ => rfl
  | b, c :: cs, h => by
    have hc : (c == '#') = false := by simpa using h c (by simp)
    unfold uncomment
    rw [hc, Bool.and_false, if_neg (by simp), uncomment_id _ cs fun d hd => h d (by simp [hd])]

theorem lstrip_blanks (n : ℕ) (l : Line) : lstrip (blanks n ++ l) = lstrip l := by
  unfold lstrip blanks
  induction n with
  | zero => rfl
  | succ k ih => rw [List.replicate_succ, List.cons_append, List.dropWhile_cons_of_pos (by rfl), ih]

theorem lstrip_cons (c : Char) (l : Line) (h : c ≠ ' ') : lstrip (c :: l) = c :: l := by
  unfold lstrip
  rw [List.dropWhile_cons_of_neg (by simpa using h)]

theorem splitKey_plain : ∀ (l : Line), (∀ c ∈ l, c ≠ ':') → splitKey l = none
  | [], _ => rfl
  | c :: cs, h => by
    have hc : (c == ':') = false := by simpa using h c (by simp)
    unfold splitKey
    rw [hc, Bool.false_and, if_neg (by simp), splitKey_plain cs fun d hd => h d (by simp [hd])]
    rfl

/-- the end of the line or a blank -/
def Break (v : Line) : Prop := v = [] ∨ ∃ r, v = ' ' :: r

theorem splitKey_key : ∀ (k v : Line), (∀ c ∈ k, c ≠ ':') → Break v → splitKey (k ++ ':' :: v) = some (k, v)
  | [], v, _, hv => by
    rcases hv with rfl | ⟨r, rfl⟩ <;> rfl
  | c :: cs, v, h, hv => by
    have hc : (c == ':') = false := by simpa using h c (by simp)
    rw [List.cons_append]
    unfold splitKey
    rw [hc, Bool.false_and, if_neg (by simp), splitKey_key cs v (fun d hd => h d (by simp [hd])) hv]
    rfl

theorem rstrip_ne (a : Char) (l : Line) (h : a ≠ ' ') : rstrip (a :: l) ≠ [] := by
  unfold rstrip
  intro hc
  have h1 : (a :: l).reverse.dropWhile (· == ' ') = [] := by simpa using hc
  have h2 : ∀ x ∈ (a :: l).reverse, (x == ' ') = true := by
    have h3 := List.takeWhile_append_dropWhile (p := (· == ' ')) (l := (a :: l).reverse)
    rw [h1, List.append_nil] at h3
    intro x hx
    rw [← h3] at hx
    exact List.all_eq_true.1 (List.all_takeWhile (p := (· == ' ')) (l := (a :: l).reverse)) x hx
  have := h2 a (by simp)
  simp only [beq_iff_eq] at this
  exact h this

theorem rstrip_blanks (k : Line) (n : ℕ) (hk : ∀ c ∈ k, c ≠ ' ') : rstrip (k ++ blanks n) = k := by
  unfold rstrip blanks
  rw [List.reverse_append, List.reverse_replicate]
  have h1 : ∀ (m : ℕ) (l : Line), (List.replicate m ' ' ++ l).dropWhile (· == ' ') = l.dropWhile (· == ' ') := by
    intro m l
    induction m with
    | zero => rfl
    | succ k ih => rw [List.replicate_succ, List.cons_append, List.dropWhile_cons_of_pos (by rfl), ih]
  rw [h1]
  have : k.reverse.dropWhile (· == ' ') = k.reverse := by
    cases h : k.reverse with
    | nil => rfl
    | cons c r =>
      have : c ∈ k := by rw [← List.mem_reverse, h]; simp
      rw [List.dropWhile_cons_of_neg (by simpa using hk c this)]
  rw [this, List.reverse_reverse]

/-- a name of a field -/
def NameOk (k : Line) : Prop :=
  (∀ c ∈ k, c ≠ ':' ∧ c ≠ '#' ∧ c ≠ ' ') ∧ (∃ a r, k = a :: r ∧ a ∉ indicators) ∧ k.length ≤ 100

theorem not_dash (a : Char) (h : a ∉ indicators) : a ≠ '-' := by
  rintro rfl
  exact h (by decide +kernel)

theorem parseLine_entry (l : Line) (a : Char) (r : Line) (h : lstrip (uncomment true l) = a :: r) (ha : a ≠ '-') :
    parseLine l = (parseText (a :: r)).bind fun p =>
      p.1.map fun k => some ⟨(uncomment true l).length - (a :: r).length, false, some k, p.2⟩ := by
  unfold parseLine
  simp only [h]
  split
  · simp at *
  · rename_i heq
    simp only [List.cons.injEq] at heq
    exact absurd heq.1 ha
  · rfl

theorem parse_entry (i w : ℕ) (name : Line) (v : Line) (hw : w ≤ 100) (hn : NameOk name) (hv : Break v) (hh : Plain v)
    (hs : plainStart (lstrip v) = true) :
    parseLine (blanks i ++ (padRight w name ++ ':' :: v)) = some (some ⟨i, false, some name, rstrip (lstrip v)⟩) := by
  obtain ⟨h1, ⟨a, r, rfl, h2⟩, h3⟩ := hn
  have ha : a ≠ ' ' := (h1 a (by simp)).2.2
  have hu : uncomment true (blanks i ++ (padRight w (a :: r) ++ ':' :: v)) = blanks i ++ (padRight w (a :: r) ++ ':' :: v) := by
    apply uncomment_id
    intro c hc
    simp only [List.mem_append, List.mem_cons, blanks, List.mem_replicate, padRight] at hc
    rcases hc with h | (h | h) | h | h
    · rw [h.2]; decide
    · rcases h with rfl | h
      · exact (h1 c (by simp)).2.1
      · exact (h1 c (by simp [h])).2.1
    · rw [h.2]; decide
    · rw [h]; decide
    · exact (hh c h).2
  have hl : lstrip (uncomment true (blanks i ++ (padRight w (a :: r) ++ ':' :: v))) =
      a :: (r ++ (List.replicate (w - (a :: r).length) ' ' ++ ':' :: v)) := by
    rw [hu, lstrip_blanks, padRight, List.append_assoc, List.cons_append, lstrip_cons _ _ ha]
  rw [parseLine_entry _ _ _ hl (not_dash a h2), hu]
  have hk : splitKey (a :: (r ++ (List.replicate (w - (a :: r).length) ' ' ++ ':' :: v))) =
      some (a :: r ++ blanks (w - (a :: r).length), v) := by
    have := splitKey_key (a :: r ++ blanks (w - (a :: r).length)) v (by
      intro c hc
      rcases List.mem_append.1 hc with h | h
      · exact (h1 c h).1
      · rw [blanks, List.mem_replicate] at h
        rw [h.2]; decide) hv
    rw [← this]
    simp [blanks]
  unfold parseText
  rw [hk]
  have hp : plainStart (a :: (r ++ (List.replicate (w - (a :: r).length) ' ' ++ ':' :: v))) = true := by
    have : indicators.contains a = false := by simpa using h2
    simp only [plainStart, this, Bool.not_false, Bool.true_or]
  have hlen : (a :: r ++ blanks (w - (a :: r).length)).length ≤ 1024 := by
    simp only [List.length_append, blanks, List.length_replicate]
    omega
  dsimp only
  rw [hp, splitKey_plain v fun c hc => (hh c hc).1, hs]
  rw [if_pos (by simpa using hlen), rstrip_blanks _ _ fun c hc => (h1 c hc).2.2]
  have hsub : (blanks i ++ (padRight w (a :: r) ++ ':' :: v)).length -
      (a :: (r ++ (List.replicate (w - (a :: r).length) ' ' ++ ':' :: v))).length = i := by
    simp only [List.length_append, blanks, List.length_replicate, padRight, List.length_cons]
    omega
  rw [hsub]
  rfl

/-- text of a field: no colon and no hash, and the first character is not an indicator -/
def TextOk (t : Line) : Prop := Plain t ∧ (∃ a r, lstrip t = a :: r ∧ a ≠ ' ') ∧ plainStart (lstrip t) = true

theorem parse_field (i w : ℕ) (name : String) (t : Line) (hw : w ≤ 100) (hn : NameOk name.toList) (ht : TextOk t) :
    ∃ v, v ≠ [] ∧ parseLine (field i w name t) = some (some ⟨i, false, some name.toList, v⟩) := by
  obtain ⟨h1, ⟨a, r, h2, h3⟩, h4⟩ := ht
  have hl : lstrip (' ' :: t) = lstrip t := lstrip_blanks 1 t
  refine ⟨rstrip (lstrip (' ' :: t)), ?_, ?_⟩
  · rw [hl, h2]; exact rstrip_ne _ _ h3
  · exact parse_entry i w name.toList (' ' :: t) hw hn (Or.inr ⟨_, rfl⟩) (plain_cons (by decide) h1) (by rw [hl, h4])

/-- a text that starts with a letter or digit -/
theorem textOk_cons (a : Char) (r : Line) (h : Plain (a :: r)) (ha : a ∉ indicators) (hb : a ≠ ' ') : TextOk (a :: r) := by
  have hl := lstrip_cons a r hb
  refine ⟨h, ⟨a, r, hl, hb⟩, ?_⟩
  rw [hl]
  have : indicators.contains a = false := by simpa using ha
  simp only [plainStart, this, Bool.not_false, Bool.true_or]

/-! ## Items of the list of references -/

/-- number of colons with a blank or the end of the line behind them -/
def colons : Line → ℕ
  | [] => 0
  | [c] => if c = ':' then 1 else 0
  | c :: d :: r => (if c = ':' ∧ d = ' ' then 1 else 0) + colons (d :: r)

theorem splitKey_colons : ∀ l : Line, (splitKey l = none → colons l = 0) ∧
    ∀ k v, splitKey l = some (k, v) → colons l = 1 + colons v
  | [] => ⟨fun _ => rfl, fun k v h => by simp [splitKey] at h⟩
  | [c] => by
    by_cases h : c = ':'
    · subst h
      refine ⟨fun hc => by simp [splitKey] at hc, fun k v hk => ?_⟩
      simp [splitKey] at hk
      simp [hk.2, colons]
    · have hs : splitKey [c] = none := by simp [splitKey, h]
      exact ⟨fun _ => by simp [colons, h], fun k v hk => by rw [hs] at hk; simp at hk⟩
  | c :: d :: r => by
    obtain ⟨i1, i2⟩ := splitKey_colons (d :: r)
    by_cases h : c = ':' ∧ d = ' '
    · have hs : splitKey (c :: d :: r) = some ([], d :: r) := by
        rw [splitKey]; simp [h.1, h.2]
      refine ⟨fun hc => by rw [hs] at hc; simp at hc, fun k v hk => ?_⟩
      rw [hs] at hk
      simp only [Option.some.injEq, Prod.mk.injEq] at hk
      rw [colons, if_pos h, ← hk.2]
    · have hs : splitKey (c :: d :: r) = (splitKey (d :: r)).map fun p => (c :: p.1, p.2) := by
        have : (c == ':' && d == ' ') = false := by simpa using h
        conv_lhs => rw [splitKey]
        simp only [this]
        rfl
      rw [hs, colons, if_neg h, Nat.zero_add]
      constructor
      · intro hc
        exact i1 (by simpa using hc)
      · intro k v hk
        rw [Option.map_eq_some_iff] at hk
        obtain ⟨⟨k', v'⟩, e1, e2⟩ := hk
        simp only [Prod.mk.injEq] at e2
        rw [i2 k' v' e1, e2.2]

/-- the line of a reference -/
def item (r : Line) : Line := blanks 6 ++ ('-' :: ' ' :: r)

theorem parse_item (r : Line) (h : ∀ c ∈ r, c ≠ '#') :
    parseLine (item r) = (parseText (lstrip r)).map fun p => some ⟨6, true, p.1, p.2⟩ := by
  have hu : uncomment true (item r) = item r := by
    apply uncomment_id
    intro c hc
    simp only [item, List.mem_append, List.mem_cons, blanks, List.mem_replicate] at hc
    rcases hc with h' | h' | h' | h'
    · rw [h'.2]; decide
    · rw [h']; decide
    · rw [h']; decide
    · exact h c h'
  have hl : lstrip (item r) = '-' :: ' ' :: r := by
    rw [item, lstrip_blanks, lstrip_cons _ _ (by decide)]
  unfold parseLine
  simp only [hu, hl]
  have : (item r).length - ('-' :: ' ' :: r).length = 6 := by
    simp [item, blanks]
  rw [this]

/-- two colons in a reference: the line is refused -/
theorem item_two (a : Char) (s : Line) (h : ∀ c ∈ a :: s, c ≠ '#') (ha : a ≠ ' ') (hc : 2 ≤ colons (a :: s)) :
    parseLine (item (a :: s)) = none := by
  rw [parse_item _ h, lstrip_cons _ _ ha]
  obtain ⟨h1, h2⟩ := splitKey_colons (a :: s)
  unfold parseText
  cases hs : splitKey (a :: s) with
  | none => have := h1 hs; omega
  | some p =>
    obtain ⟨k, v⟩ := p
    have h3 := h2 k v hs
    have h4 : (splitKey v).isNone = false := by
      cases hv : splitKey v with
      | none => have := (splitKey_colons v).1 hv; omega
      | some q => rfl
    simp [h4]

/-- no colon in a reference: it is a scalar -/
theorem item_zero (a : Char) (s : Line) (h : ∀ c ∈ a :: s, c ≠ '#') (ha : a ≠ ' ') (hi : a ∉ indicators)
    (hc : colons (a :: s) = 0) : ∃ v, parseLine (item (a :: s)) = some (some ⟨6, true, none, v⟩) := by
  rw [parse_item _ h, lstrip_cons _ _ ha]
  have hs : splitKey (a :: s) = none := by
    cases hs : splitKey (a :: s) with
    | none => rfl
    | some p => have := (splitKey_colons (a :: s)).2 p.1 p.2 hs; omega
  have : plainStart (a :: s) = true := by
    have : indicators.contains a = false := by simpa using hi
    simp only [plainStart, this, Bool.not_false, Bool.true_or]
  unfold parseText
  rw [hs, this]
  exact ⟨_, rfl⟩

/-! ## Lists of lines -/

theorem mapM_append' {A B : Type} (f : A → Option B) (xs ys : List A) (as bs : List B) (hx : xs.mapM f = some as)
    (hy : ys.mapM f = some bs) : (xs ++ ys).mapM f = some (as ++ bs) := by
  rw [List.mapM_append, hx, hy]; rfl

theorem mapM_cons' {A B : Type} (f : A → Option B) (x : A) (xs : List A) (a : B) (as : List B) (hx : f x = some a)
    (hy : xs.mapM f = some as) : (x :: xs).mapM f = some (a :: as) := by
  rw [List.mapM_cons, hx, hy]; rfl

theorem mapM_none {A B : Type} (f : A → Option B) : ∀ (xs : List A) (x : A), x ∈ xs → f x = none → xs.mapM f = none
  | y :: ys, x, hx, hf => by
    rw [List.mapM_cons]
    rcases List.mem_cons.1 hx with rfl | h
    · rw [hf]; rfl
    · rw [mapM_none f ys x h hf]
      cases f y <;> rfl

theorem filterMap_some (n : Node) (N : List (Option Node)) : (some n :: N).filterMap id = n :: N.filterMap id := rfl

/-- what the structure of the document depends on -/
def sig (n : Node) : (ℕ × Bool × Bool) × Option Line := (n.shape, if n.seq then none else n.key)

/-- the lines are read and have these signatures -/
def Reads (ls : List Line) (S : List ((ℕ × Bool × Bool) × Option Line)) : Prop :=
  ∃ N, ls.mapM parseLine = some N ∧ (N.filterMap id).map sig = S

theorem reads_nil : Reads [] [] := ⟨[], rfl, rfl⟩

theorem reads_append {a b : List Line} {S T} (ha : Reads a S) (hb : Reads b T) : Reads (a ++ b) (S ++ T) := by
  obtain ⟨N, h1, h2⟩ := ha
  obtain ⟨M, h3, h4⟩ := hb
  exact ⟨N ++ M, mapM_append' _ _ _ _ _ h1 h3, by rw [List.filterMap_append, List.map_append, h2, h4]⟩

theorem reads_field (i w : ℕ) (name : String) (t : Line) (hw : w ≤ 100) (hn : NameOk name.toList) (ht : TextOk t)
    {ls : List Line} {S} (hs : Reads ls S) : Reads (field i w name t :: ls) (((i, false, false), some name.toList) :: S) := by
  obtain ⟨N, h1, h2⟩ := hs
  obtain ⟨v, hv, hp⟩ := parse_field i w name t hw hn ht
  refine ⟨_, mapM_cons' _ _ _ _ _ hp h1, ?_⟩
  rw [filterMap_some, List.map_cons, h2]
  have : v.isEmpty = false := by cases v <;> simp_all
  simp [sig, Node.shape, this]

theorem reads_head (i w : ℕ) (name : String) (hw : w ≤ 100) (hn : NameOk name.toList)
    {ls : List Line} {S} (hs : Reads ls S) : Reads (head i w name :: ls) (((i, false, true), some name.toList) :: S) := by
  obtain ⟨N, h1, h2⟩ := hs
  have hp := parse_entry i w name.toList [] hw hn (Or.inl rfl) plain_nil rfl
  refine ⟨_, mapM_cons' _ _ _ _ _ hp h1, ?_⟩
  rw [filterMap_some, List.map_cons, h2]
  rfl

theorem reads_blank {ls : List Line} {S} (hs : Reads ls S) : Reads ([] :: ls) S := by
  obtain ⟨N, h1, h2⟩ := hs
  exact ⟨none :: N, mapM_cons' _ _ _ _ _ rfl h1, by simpa using h2⟩

theorem reads_items (rs : List Line) (h : ∀ r ∈ rs, ∃ k v, parseLine (item r) = some (some ⟨6, true, k, v⟩)) :
    Reads (rs.map item) (List.replicate rs.length ((6, true, false), none)) := by
  induction rs with
  | nil => exact reads_nil
  | cons r rs ih =>
    obtain ⟨N, h1, h2⟩ := ih fun x hx => h x (by simp [hx])
    obtain ⟨k, v, hp⟩ := h r (by simp)
    refine ⟨_, mapM_cons' _ _ _ _ _ hp h1, ?_⟩
    rw [filterMap_some, List.map_cons, h2, List.length_cons, List.replicate_succ]
    simp [sig, Node.shape]

end Verif.GeoFile
