import Verif.Names.Regex

/-!
# The first match of a regular expression

Rules for the first element of `runs`, the match that Python reports.
-/
namespace Verif.Names

/-- the search first finds the groups `c` and leaves `r` -/
def First (e : Re) (s : List Char) (c : List (ℕ × List Char)) (r : List Char) : Prop := (runs e s).head? = some (c, r)

theorem first_iff (e : Re) (s : List Char) (c r) : First e s c r ↔ ∃ l, runs e s = (c, r) :: l := by
  unfold First
  cases runs e s with
  | nil => simp
  | cons x l => simp

theorem first_seq {a b : Re} {s r q : List Char} {c d} (h1 : First a s c r) (h2 : First b r d q) :
    First (.seq a b) s (c ++ d) q := by
  obtain ⟨l1, h1⟩ := (first_iff ..).1 h1
  obtain ⟨l2, h2⟩ := (first_iff ..).1 h2
  rw [first_iff]
  exact ⟨_, by simp only [runs, h1, List.flatMap_cons, h2, List.map_cons, List.cons_append]; rfl⟩

theorem first_cat {e : Re} {es : List Re} {s r q : List Char} {c d} (h1 : First e s c r) (h2 : First (cat es) r d q) :
    First (cat (e :: es)) s (c ++ d) q := first_seq h1 h2

theorem first_cat_nil (s : List Char) : First (cat []) s [] s := rfl

theorem first_grp {a : Re} {u r : List Char} {c} (i : ℕ) (h : First a (u ++ r) c r) :
    First (.grp i a) (u ++ r) ((i, u) :: c) r := by
  obtain ⟨l, h⟩ := (first_iff ..).1 h
  unfold First
  simp only [runs, h, List.map_cons, List.head?_cons]
  simp

theorem runs_lit (w r : List Char) : runs (lit w) (w ++ r) = [([], r)] := by
  induction w with
  | nil => rfl
  | cons c w ih =>
    have : lit (c :: w) = .seq (.chr (· == c)) (lit w) := rfl
    rw [this]
    simp [runs, ih]

theorem first_lit (w r : List Char) : First (lit w) (w ++ r) [] r := by
  unfold First; rw [runs_lit]; rfl

theorem runs_lit_none (w s : List Char) (h : ¬ w <+: s) : runs (lit w) s = [] := by
  rw [List.eq_nil_iff_forall_not_mem]
  rintro ⟨c, r⟩ hm
  obtain ⟨u, hu, lu⟩ := (runs_lang (lit w) (noEnd_lit w) s r).1 ⟨c, hm⟩
  rw [lang_lit] at lu
  exact h ⟨r, by rw [hu, lu]⟩

theorem runs_seq_none {a b : Re} {s : List Char} (h : runs a s = []) : runs (.seq a b) s = [] := by
  simp [runs, h]

theorem lazyRests_block (p : Char → Bool) (u r : List Char) (hu : ∀ c ∈ u, p c = true)
    (hr : ∀ c ∈ r.head?, p c = false) : lazyRests p (u ++ r) = u.tails.map (· ++ r) := by
  induction u with
  | nil =>
    cases r with
    | nil => rfl
    | cons c r =>
      have := hr c (by simp)
      simp [lazyRests, this]
  | cons c u ih =>
    simp only [List.cons_append, lazyRests, hu c (by simp), if_true, ih fun x hx => hu x (by simp [hx])]
    rfl

theorem first_greedy (p : Char → Bool) (u r : List Char) (hu : ∀ c ∈ u, p c = true)
    (hr : ∀ c ∈ r.head?, p c = false) : First (.many true p) (u ++ r) [] r := by
  have tailsLast : ∀ u : List Char, ∃ l, u.tails.reverse = [] :: l := by
    intro u
    induction u with
    | nil => exact ⟨[], rfl⟩
    | cons c u ih =>
      obtain ⟨l, hl⟩ := ih
      exact ⟨l ++ [c :: u], by simp [hl]⟩
  obtain ⟨l, hl⟩ := tailsLast u
  unfold First
  simp only [runs, if_true, lazyRests_block p u r hu hr, ← List.map_reverse, hl]
  simp

theorem first_chr (p : Char → Bool) (c : Char) (r : List Char) (h : p c = true) : First (.chr p) (c :: r) [] r := by
  unfold First; simp [runs, h]

theorem first_digits (u r : List Char) (hne : u ≠ []) (hu : ∀ c ∈ u, c.isDigit = true)
    (hr : ∀ c ∈ r.head?, c.isDigit = false) : First digits (u ++ r) [] r := by
  cases u with
  | nil => exact absurd rfl hne
  | cons c u =>
    exact first_seq (c := []) (d := []) (first_chr _ c (u ++ r) (hu c (by simp)))
      (first_greedy _ u r (fun x hx => hu x (by simp [hx])) hr)

theorem first_times (u r : List Char) (hu : ∀ c ∈ u, c.isDigit = true) :
    First (times u.length digit) (u ++ r) [] r := by
  induction u with
  | nil => rfl
  | cons c u ih =>
    exact first_seq (c := []) (d := []) (first_chr _ c (u ++ r) (hu c (by simp))) (ih fun x hx => hu x (by simp [hx]))

/-- the lazy group takes the shortest text after which the rest of the expression fits -/
theorem first_lazy (i : ℕ) (p : Char → Bool) (b : Re) (u r q : List Char) (d) (hu : ∀ c ∈ u, p c = true)
    (hb : First b r d q) (hmin : ∀ v w, u ++ r = v ++ w → v.length < u.length → runs b w = []) :
    First (.seq (.grp i (.many false p)) b) (u ++ r) ((i, u) :: d) q := by
  obtain ⟨l, hl⟩ := (first_iff ..).1 hb
  -- the search, with the part already skipped
  have key : ∀ (u v : List Char), (∀ c ∈ u, p c = true) → (∀ k < u.length, runs b ((u ++ r).drop k) = []) →
      (((lazyRests p (u ++ r)).map fun x : List Char => (([] : List (ℕ × List Char)), x)).flatMap fun x =>
        (runs b x.2).map fun y => ((i, (v ++ u ++ r).take ((v ++ u ++ r).length - x.2.length)) :: (x.1 ++ y.1), y.2)).head?
        = some ((i, v ++ u) :: d, q) := by
    intro u
    induction u with
    | nil =>
      intro v _ _
      have : ∃ l', lazyRests p r = r :: l' := by
        cases r with
        | nil => exact ⟨[], rfl⟩
        | cons c r => exact ⟨_, rfl⟩
      obtain ⟨l', hl'⟩ := this
      simp [hl', hl]
    | cons c u ih =>
      intro v hu hk
      have h0 := hk 0 (by simp)
      simp only [List.drop_zero] at h0
      have := ih (v ++ [c]) (fun x hx => hu x (by simp [hx])) (fun k hk' => by
        have := hk (k + 1) (by simpa using hk')
        simpa using this)
      simp only [List.cons_append, lazyRests, hu c (by simp), if_true, List.map_cons, List.flatMap_cons] at this h0 ⊢
      rw [h0]
      simpa using this
  have := key u [] hu (fun k hk => by
    refine hmin ((u ++ r).take k) ((u ++ r).drop k) (by simp) ?_
    simp; omega)
  unfold First
  simp only [runs] at this ⊢
  rw [if_neg (by simp)]
  simpa [List.flatMap_map, Function.comp_def] using this

theorem first_alt_left {a b : Re} {s c r} (h : First a s c r) : First (.alt a b) s c r := by
  obtain ⟨l, h⟩ := (first_iff ..).1 h
  rw [first_iff]
  exact ⟨l ++ runs b s, by simp [runs, h]⟩

theorem first_alt_right {a b : Re} {s c r} (hn : runs a s = []) (h : First b s c r) : First (.alt a b) s c r := by
  unfold First at *
  simp only [runs, hn, List.nil_append]; exact h

theorem first_of_accepts {e : Re} {s : List Char} (h : accepts e s = true) : ∃ c r, First e s c r := by
  unfold accepts at h
  cases hr : runs e s with
  | nil => rw [hr] at h; simp at h
  | cons x l => exact ⟨x.1, x.2, by unfold First; rw [hr]; rfl⟩

/-- if the expression cannot match the rest of the text from a later position, `findall` finds what is found at the
first position where there is something -/
theorem findall_single (e : Re) (p s : List Char) (c r) (hp : ∀ k < p.length, runs e ((p ++ s).drop k) = [])
    (h : First e s c r) (hr : r.length < s.length) (hend : ∀ k, runs e (r.drop k) = []) :
    findall e (p ++ s) = [c] := by
  have none : ∀ (n : ℕ) (t : List Char), (∀ k, runs e (t.drop k) = []) → findallN n e t = [] := by
    intro n
    induction n with
    | zero => intros; rfl
    | succ n ih =>
      intro t ht
      rw [findallN, show runs e t = [] from by simpa using ht 0]
      dsimp only
      split
      · rfl
      · exact ih _ fun k => by rw [← List.drop_one, List.drop_drop]; exact ht _
  have skip : ∀ (p : List Char) (n : ℕ), (∀ k < p.length, runs e ((p ++ s).drop k) = []) →
      findallN (n + p.length) e (p ++ s) = findallN n e s := by
    intro p
    induction p with
    | nil => intro n _; simp
    | cons a p ih =>
      intro n hk
      have h0 := hk 0 (by simp)
      simp only [List.drop_zero, List.cons_append] at h0
      rw [show n + (a :: p).length = (n + p.length) + 1 by simp; omega, List.cons_append, findallN, h0]
      simp only [reduceCtorEq, if_false, List.tail_cons]
      refine ih n fun k hk' => ?_
      have := hk (k + 1) (by simpa using hk')
      simpa using this
  obtain ⟨l, hl⟩ := (first_iff ..).1 h
  unfold findall
  rw [show (p ++ s).length + 1 = (s.length + 1) + p.length by simp; omega, skip p _ hp, findallN, hl]
  simp only [if_pos hr]
  rw [none _ _ hend]

end Verif.Names
