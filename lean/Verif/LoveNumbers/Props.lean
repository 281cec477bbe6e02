import Verif.LoveNumbers.Model
import Mathlib.Tactic.Linarith
import Mathlib.Tactic.FieldSimp
import Mathlib.Tactic.Ring
import Mathlib.Data.List.Pairwise

/-!
# Love numbers: tables, missing degrees and reference frames (C44)
-/
namespace Verif.LoveNumbers

/-- the three kinds of Love number -/
inductive Kind where
  | h | k | l

def Triple.get : Kind → Triple → ℚ
  | .h, t => t.hl
  | .k, t => t.kl
  | .l, t => t.ll

def Love.get : Kind → Love → ℕ → ℚ
  | .h, a => a.hl
  | .k, a => a.kl
  | .l, a => a.ll

/-- the file gives `t` at degree `d` -/
abbrev Given (rows : List (ℕ × Triple)) (d : ℕ) (t : Triple) : Prop := (d, t) ∈ rows

/-- the file has no line for degree `d` -/
abbrev Missing (rows : List (ℕ × Triple)) (d : ℕ) : Prop := ∀ t, (d, t) ∉ rows

/-! ## reading -/

theorem get_map (κ : Kind) (f : (ℕ → ℚ) → ℕ → ℚ) (a : Love) : (a.map f).get κ = f (a.get κ) := by
  cases κ <;> rfl

theorem get_readStep (κ : Kind) (lmax : ℕ) (s : ReadState) (r : ℕ × Triple) :
    (readStep lmax s r).love.get κ =
      if r.1 ≤ lmax then Function.update (s.love.get κ) r.1 (r.2.get κ) else s.love.get κ := by
  unfold readStep
  split <;> cases κ <;> rfl

theorem flag_readStep (lmax : ℕ) (s : ReadState) (r : ℕ × Triple) :
    (readStep lmax s r).flag = if r.1 ≤ lmax then Function.update s.flag r.1 false else s.flag := by
  unfold readStep
  split <;> rfl

theorem fold_missing (κ : Kind) (lmax : ℕ) (rows : List (ℕ × Triple)) (s : ReadState) (d : ℕ)
    (hm : Missing rows d) : (rows.foldl (readStep lmax) s).love.get κ d = s.love.get κ d ∧
      (rows.foldl (readStep lmax) s).flag d = s.flag d := by
  induction rows generalizing s with
  | nil => exact ⟨rfl, rfl⟩
  | cons a t ih =>
    have h1 : d ≠ a.1 := by
      intro h
      exact hm a.2 (by rw [h]; simp)
    obtain ⟨e1, e2⟩ := ih (readStep lmax s a) fun x hx => hm x (by simp [hx])
    rw [List.foldl_cons, e1, e2, get_readStep, flag_readStep]
    split <;> simp [Function.update_of_ne h1]

theorem fold_given (κ : Kind) (lmax : ℕ) (rows : List (ℕ × Triple)) (s : ReadState) (d : ℕ) (t : Triple)
    (hinc : (rows.map Prod.fst).Pairwise (· < ·)) (hg : Given rows d t) (hd : d ≤ lmax) :
    (rows.foldl (readStep lmax) s).love.get κ d = t.get κ ∧ (rows.foldl (readStep lmax) s).flag d = false := by
  induction rows generalizing s with
  | nil => simp [Given] at hg
  | cons a u ih =>
    rw [List.map_cons, List.pairwise_cons] at hinc
    rcases List.mem_cons.1 hg with h | h
    · subst h
      have hm : Missing u d := by
        intro x hx
        exact absurd (hinc.1 d (List.mem_map.2 ⟨(d, x), hx, rfl⟩)) (lt_irrefl _)
      obtain ⟨e1, e2⟩ := fold_missing κ lmax u (readStep lmax s (d, t)) d hm
      rw [List.foldl_cons, e1, e2, get_readStep, flag_readStep]
      simp [hd]
    · rw [List.foldl_cons]
      exact ih _ hinc.2 h

theorem fold_flag (lmax : ℕ) (rows : List (ℕ × Triple)) (hinc : (rows.map Prod.fst).Pairwise (· < ·)) (d : ℕ)
    (hd : d ≤ lmax) : (rows.foldl (readStep lmax) init).flag d = true ↔ Missing rows d := by
  constructor
  · intro h t ht
    rw [(fold_given .h lmax rows init d t hinc ht hd).2] at h
    exact absurd h (by simp)
  · intro h
    rw [(fold_missing .h lmax rows init d h).2]; rfl

/-! ## interpolation -/

theorem filter_last (n a : ℕ) (p : ℕ → Bool) (ha : a < n) (hpa : p a = true) (hp : ∀ b, a < b → b < n → p b = false) :
    ((List.range n).filter p).getLast? = some a := by
  have hsplit : List.range n = List.range (a + 1) ++ List.range' (a + 1) (n - (a + 1)) := by
    rw [List.range_eq_range', List.range_eq_range',
      show List.range' (a + 1) (n - (a + 1)) = List.range' (0 + (a + 1)) (n - (a + 1)) from by rw [Nat.zero_add],
      List.range'_append_1]
    congr 1; omega
  have hnil : (List.range' (a + 1) (n - (a + 1))).filter p = [] := by
    rw [List.filter_eq_nil_iff]
    intro b hb
    rw [List.mem_range'_1] at hb
    rw [hp b (by omega) (by omega)]; simp
  rw [hsplit, List.filter_append, hnil, List.append_nil, List.range_succ, List.filter_append]
  simp [hpa]

theorem filter_head (n a : ℕ) (p : ℕ → Bool) (ha : a < n) (hpa : p a = true) (hp : ∀ b, b < a → p b = false) :
    ((List.range n).filter p).head? = some a := by
  have hsplit : List.range n = List.range a ++ List.range' a (n - a) := by
    rw [List.range_eq_range', List.range_eq_range']
    rw [show List.range' a (n - a) = List.range' (0 + a) (n - a) from by rw [Nat.zero_add], List.range'_append_1]
    congr 1; omega
  have hnil : (List.range a).filter p = [] := by
    rw [List.filter_eq_nil_iff]
    intro b hb
    rw [hp b (List.mem_range.1 hb)]; simp
  obtain ⟨k, hk⟩ : ∃ k, n - a = k + 1 := ⟨n - a - 1, by omega⟩
  rw [hsplit, List.filter_append, hnil, List.nil_append, hk, List.range'_succ, List.filter_cons, if_pos hpa]
  rfl

theorem filter_nil (n : ℕ) (p : ℕ → Bool) (hp : ∀ b, b < n → p b = false) : (List.range n).filter p = [] := by
  rw [List.filter_eq_nil_iff]
  intro b hb
  rw [hp b (List.mem_range.1 hb)]; simp

/-- the values after reading and interpolation -/
def base (κ : Kind) (lmax : ℕ) (rows : List (ℕ × Triple)) : ℕ → ℚ :=
  interpolate lmax (rows.foldl (readStep lmax) init).flag ((rows.foldl (readStep lmax) init).love.get κ)

theorem base_given (κ : Kind) (lmax : ℕ) (rows : List (ℕ × Triple)) (hinc : (rows.map Prod.fst).Pairwise (· < ·))
    (d : ℕ) (t : Triple) (hg : Given rows d t) (hd : d ≤ lmax) : base κ lmax rows d = t.get κ := by
  obtain ⟨h1, h2⟩ := fold_given κ lmax rows init d t hinc hg hd
  simp only [base, interpolate, h2, h1, Bool.false_eq_true, and_false, if_false]

theorem base_missing (κ : Kind) (lmax : ℕ) (rows : List (ℕ × Triple)) (hinc : (rows.map Prod.fst).Pairwise (· < ·))
    (d : ℕ) (hm : Missing rows d) (hd : d ≤ lmax) :
    base κ lmax rows d = npInterp ((List.range (lmax + 1)).filter fun d => !(rows.foldl (readStep lmax) init).flag d)
      ((rows.foldl (readStep lmax) init).love.get κ) d := by
  have h2 := (fold_flag lmax rows hinc d hd).2 hm
  simp only [base, interpolate, h2, hd, and_self, if_true]

theorem known_iff (lmax : ℕ) (rows : List (ℕ × Triple)) (hinc : (rows.map Prod.fst).Pairwise (· < ·)) (d : ℕ)
    (hd : d ≤ lmax) : (rows.foldl (readStep lmax) init).flag d = false ↔ ∃ t, Given rows d t := by
  rw [← Bool.not_eq_true, fold_flag lmax rows hinc d hd]
  unfold Missing Given
  push Not
  rfl

theorem lower_some (lmax : ℕ) (rows : List (ℕ × Triple)) (hinc : (rows.map Prod.fst).Pairwise (· < ·)) (x a : ℕ)
    (hx : x ≤ lmax) (hax : a < x) (ha : ∃ t, Given rows a t) (hgap : ∀ b, a < b → b < x → Missing rows b) :
    (((List.range (lmax + 1)).filter fun d => !(rows.foldl (readStep lmax) init).flag d).filter
      fun d => d < x).getLast? = some a := by
  rw [List.filter_filter]
  refine filter_last (lmax + 1) a _ (by omega) ?_ ?_
  · simp [hax, (known_iff lmax rows hinc a (by omega)).2 ha]
  · intro b h1 h2
    by_cases hbx : b < x
    · simp [hbx, (fold_flag lmax rows hinc b (by omega)).2 (hgap b h1 hbx)]
    · simp [hbx]

theorem upper_some (lmax : ℕ) (rows : List (ℕ × Triple)) (hinc : (rows.map Prod.fst).Pairwise (· < ·)) (x b : ℕ)
    (hb : b ≤ lmax) (hxb : x < b) (hbg : ∃ t, Given rows b t) (hgap : ∀ c, x < c → c < b → Missing rows c) :
    (((List.range (lmax + 1)).filter fun d => !(rows.foldl (readStep lmax) init).flag d).filter
      fun d => x < d).head? = some b := by
  rw [List.filter_filter]
  refine filter_head (lmax + 1) b _ (by omega) ?_ ?_
  · simp [hxb, (known_iff lmax rows hinc b (by omega)).2 hbg]
  · intro c h1
    by_cases hcx : x < c
    · simp [hcx, (fold_flag lmax rows hinc c (by omega)).2 (hgap c hcx h1)]
    · simp [hcx]

theorem base_between (κ : Kind) (lmax : ℕ) (rows : List (ℕ × Triple))
    (hinc : (rows.map Prod.fst).Pairwise (· < ·)) (a x b : ℕ) (ta tb : Triple) (ha : Given rows a ta)
    (hb : Given rows b tb) (hax : a < x) (hxb : x < b) (hbl : b ≤ lmax)
    (hgap : ∀ c, a < c → c < b → Missing rows c) :
    base κ lmax rows x = ta.get κ + (tb.get κ - ta.get κ) / ((b : ℚ) - a) * ((x : ℚ) - a) := by
  rw [base_missing κ lmax rows hinc x (hgap x hax hxb) (by omega)]
  unfold npInterp
  rw [lower_some lmax rows hinc x a (by omega) hax ⟨ta, ha⟩ fun c h1 h2 => hgap c h1 (by omega),
    upper_some lmax rows hinc x b hbl hxb ⟨tb, hb⟩ fun c h1 h2 => hgap c (by omega) h2]
  simp only [(fold_given κ lmax rows init a ta hinc ha (by omega)).1,
    (fold_given κ lmax rows init b tb hinc hb hbl).1]

theorem base_below (κ : Kind) (lmax : ℕ) (rows : List (ℕ × Triple))
    (hinc : (rows.map Prod.fst).Pairwise (· < ·)) (x b : ℕ) (tb : Triple)
    (hb : Given rows b tb) (hxb : x < b) (hbl : b ≤ lmax) (hgap : ∀ c, c < b → Missing rows c) :
    base κ lmax rows x = tb.get κ := by
  rw [base_missing κ lmax rows hinc x (hgap x hxb) (by omega)]
  have hl : (((List.range (lmax + 1)).filter fun d => !(rows.foldl (readStep lmax) init).flag d).filter
      fun d => d < x) = [] := by
    rw [List.filter_filter]
    refine filter_nil _ _ fun c hc => ?_
    by_cases hcx : c < x
    · simp [hcx, (fold_flag lmax rows hinc c (by omega)).2 (hgap c (by omega))]
    · simp [hcx]
  unfold npInterp
  rw [hl, upper_some lmax rows hinc x b hbl hxb ⟨tb, hb⟩ fun c h1 h2 => hgap c h2]
  simp only [List.getLast?_nil, (fold_given κ lmax rows init b tb hinc hb hbl).1]

theorem base_above (κ : Kind) (lmax : ℕ) (rows : List (ℕ × Triple))
    (hinc : (rows.map Prod.fst).Pairwise (· < ·)) (a x : ℕ) (ta : Triple)
    (ha : Given rows a ta) (hax : a < x) (hx : x ≤ lmax) (hgap : ∀ c, a < c → c ≤ lmax → Missing rows c) :
    base κ lmax rows x = ta.get κ := by
  rw [base_missing κ lmax rows hinc x (hgap x hax hx) hx]
  have hl : (((List.range (lmax + 1)).filter fun d => !(rows.foldl (readStep lmax) init).flag d).filter
      fun d => x < d) = [] := by
    rw [List.filter_filter]
    refine filter_nil _ _ fun c hc => ?_
    by_cases hcx : x < c
    · simp [hcx, (fold_flag lmax rows hinc c (by omega)).2 (hgap c (by omega) (by omega))]
    · simp [hcx]
  unfold npInterp
  rw [hl, lower_some lmax rows hinc x a hx hax ⟨ta, ha⟩ fun c h1 h2 => hgap c h1 (by omega)]
  simp only [List.head?_nil, (fold_given κ lmax rows init a ta hinc ha (by omega)).1]

/-! ## extrapolation -/

theorem extrap_none (l lmax : ℕ) (v : ℕ → ℚ) (h : lmax < l) : extrapolate l lmax v = v := by
  unfold extrapolate
  rw [show lmax + 1 - l = 0 from by omega]; rfl

theorem extrap_fold (l n N : ℕ) (v : ℕ → ℚ) (hl : 2 ≤ l) :
    ((List.range' l n).foldl (fun v lint => Function.update v lint (2 * v (pyIdx N lint 1) - v (pyIdx N lint 2))) v) =
      fun d => if l ≤ d ∧ d < l + n then v (l - 1) + ((d : ℚ) - l + 1) * (v (l - 1) - v (l - 2)) else v d := by
  induction n with
  | zero =>
    funext d
    rw [if_neg (by omega)]; rfl
  | succ n ih =>
    rw [List.range'_1_concat, List.foldl_append, ih]
    funext d
    simp only [List.foldl_cons, List.foldl_nil, pyIdx]
    rw [if_pos (by omega : 1 ≤ l + n), if_pos (by omega : 2 ≤ l + n)]
    by_cases hd : d = l + n
    · subst hd
      rw [Function.update_self, if_pos (show l ≤ l + n ∧ l + n < l + (n + 1) by omega)]
      rcases Nat.lt_or_ge n 1 with h0 | h1
      · have : n = 0 := by omega
        subst this
        rw [if_neg (show ¬(l ≤ l + 0 - 1 ∧ l + 0 - 1 < l + 0) by omega),
          if_neg (show ¬(l ≤ l + 0 - 2 ∧ l + 0 - 2 < l + 0) by omega)]
        simp only [Nat.add_zero]
        ring
      · rw [if_pos (show l ≤ l + n - 1 ∧ l + n - 1 < l + n by omega)]
        have e1 : ((l + n - 1 : ℕ) : ℚ) = l + n - 1 := by rw [Nat.cast_sub (by omega)]; push_cast; ring
        rcases Nat.lt_or_ge n 2 with h2 | h2
        · have : n = 1 := by omega
          subst this
          rw [if_neg (show ¬(l ≤ l + 1 - 2 ∧ l + 1 - 2 < l + 1) by omega), e1,
            show l + 1 - 2 = l - 1 from by omega]
          push_cast
          ring
        · rw [if_pos (show l ≤ l + n - 2 ∧ l + n - 2 < l + n by omega), e1]
          have e2 : ((l + n - 2 : ℕ) : ℚ) = l + n - 2 := by rw [Nat.cast_sub (by omega)]; push_cast; ring
          rw [e2]; push_cast; ring
    · rw [Function.update_of_ne hd]
      by_cases hc : l ≤ d ∧ d < l + n
      · rw [if_pos hc, if_pos (by omega)]
      · rw [if_neg hc, if_neg (by omega)]

theorem extrap_at (l lmax : ℕ) (v : ℕ → ℚ) (hl : 2 ≤ l) (hlm : l ≤ lmax) (d : ℕ) :
    extrapolate l lmax v d = if l ≤ d ∧ d ≤ lmax then v (l - 1) + ((d : ℚ) - l + 1) * (v (l - 1) - v (l - 2)) else v d := by
  unfold extrapolate
  rw [extrap_fold l _ _ v hl]
  have : (l ≤ d ∧ d < l + (lmax + 1 - l)) ↔ (l ≤ d ∧ d ≤ lmax) := by omega
  simp only [this]

/-! ## the whole function -/

/-- what `readLove` returns for a table with increasing degrees, some of them within the truncation -/
theorem readLove_eq (lmax header : ℕ) (columns : List String) (reference : String) (lines : List (List Tok))
    (rows : List (ℕ × Triple)) (hparse : (lines.drop header).mapM (parseRow columns) = some rows)
    (hinc : (rows.map Prod.fst).Pairwise (· < ·)) (L : ℕ) (tL : Triple) (hlast : rows.getLast? = some (L, tL))
    (hlm : 1 ≤ lmax) (hk : ∃ d t, Given rows d t ∧ d ≤ lmax) :
    readLove lmax header columns reference lines =
      match alpha reference (extrapolate L lmax (base .h lmax rows) 1) (extrapolate L lmax (base .l lmax rows) 1) with
      | none => none
      | some α => some ⟨shift α (extrapolate L lmax (base .h lmax rows)),
          shift α (extrapolate L lmax (base .k lmax rows)), shift α (extrapolate L lmax (base .l lmax rows))⟩ := by
  obtain ⟨d, t, hg, hd⟩ := hk
  have hnot : ¬((List.range (lmax + 1)).any (rows.foldl (readStep lmax) init).flag = true ∧
      (List.range (lmax + 1)).all (rows.foldl (readStep lmax) init).flag = true) := by
    rintro ⟨_, h⟩
    rw [List.all_eq_true] at h
    have := h d (List.mem_range.2 (by omega))
    rw [(fold_given .h lmax rows init d t hinc hg hd).2] at this
    exact absurd this (by simp)
  unfold readLove
  simp only [hparse, hlast]
  rw [if_neg (by omega), if_neg hnot]
  rfl

section
variable (lmax header : ℕ) (columns : List String) (reference : String) (lines : List (List Tok))
  (rows : List (ℕ × Triple)) (hparse : (lines.drop header).mapM (parseRow columns) = some rows)
  (hinc : (rows.map Prod.fst).Pairwise (· < ·)) (L : ℕ) (tL : Triple) (hlast : rows.getLast? = some (L, tL))
  (hlm : 1 ≤ lmax) (a : Love) (hres : readLove lmax header columns reference lines = some a)
include hparse hinc hlast hlm hres

omit hinc in
theorem known_of_some : ∃ d t, Given rows d t ∧ d ≤ lmax := by
  by_contra hcon
  push Not at hcon
  have hm : ∀ d, d ≤ lmax → Missing rows d := fun d hd t ht => absurd (hcon d t ht) (by omega)
  have hall : (List.range (lmax + 1)).any (rows.foldl (readStep lmax) init).flag = true ∧
      (List.range (lmax + 1)).all (rows.foldl (readStep lmax) init).flag = true := by
    constructor
    · rw [List.any_eq_true]
      exact ⟨0, by simp, (fold_missing .h lmax rows init 0 (hm 0 (by omega))).2⟩
    · rw [List.all_eq_true]
      intro d hd
      exact (fold_missing .h lmax rows init d (hm d (by have := List.mem_range.1 hd; omega))).2
  unfold readLove at hres
  simp only [hparse, hlast] at hres
  rw [if_neg (by omega), if_pos hall] at hres
  exact absurd hres (by simp)

theorem get_off1 (κ : Kind) (d : ℕ) (hd : d ≠ 1) : a.get κ d = extrapolate L lmax (base κ lmax rows) d := by
  have hk := known_of_some lmax header columns reference lines rows hparse L tL hlast hlm a hres
  rw [readLove_eq lmax header columns reference lines rows hparse hinc L tL hlast hlm hk] at hres
  split at hres
  · exact absurd hres (by simp)
  · rw [Option.some.injEq] at hres
    rw [← hres]
    cases κ <;> simp [Love.get, shift, Function.update_of_ne hd]

omit hinc hparse hlm hres in
/-- degrees of a table with increasing degrees are at most the last one -/
theorem le_last (hinc : (rows.map Prod.fst).Pairwise (· < ·)) (d : ℕ) (t : Triple) (hg : Given rows d t) : d ≤ L := by
  have h1 : (rows.map Prod.fst).getLast? = some L := by rw [List.getLast?_map, hlast]; rfl
  have h2 : d ∈ rows.map Prod.fst := List.mem_map.2 ⟨(d, t), hg, rfl⟩
  have hne : rows.map Prod.fst ≠ [] := List.ne_nil_of_mem h2
  have h3 := (hinc.imp le_of_lt).rel_getLast h2
  rw [List.getLast?_eq_getLast_of_ne_nil hne, Option.some.injEq] at h1
  rwa [h1] at h3

/-- **C44** below the last degree of the file, every value of the file comes back unchanged at every
degree but 1 (and also at the last degree when it is beyond the truncation) -/
theorem readLove_file (κ : Kind) (d : ℕ) (t : Triple) (hg : Given rows d t) (hd : d ≤ lmax) (h1 : d ≠ 1)
    (hL2 : 2 ≤ L) (hL : d < L) : a.get κ d = t.get κ := by
  rw [get_off1 lmax header columns reference lines rows hparse hinc L tL hlast hlm a hres κ d h1]
  rcases Nat.lt_or_ge lmax L with h | h
  · rw [extrap_none L lmax _ h]; exact base_given κ lmax rows hinc d t hg hd
  · rw [extrap_at L lmax _ hL2 h, if_neg (by omega)]; exact base_given κ lmax rows hinc d t hg hd

/-- **C44** degrees missing between two neighbouring lines get the straight line between them -/
theorem readLove_between (κ : Kind) (p x q : ℕ) (tp tq : Triple) (hp : Given rows p tp) (hq : Given rows q tq)
    (hpx : p < x) (hxq : x < q) (hql : q ≤ lmax) (hgap : ∀ c, p < c → c < q → Missing rows c) (h1 : x ≠ 1) :
    a.get κ x = tp.get κ + (tq.get κ - tp.get κ) / ((q : ℚ) - p) * ((x : ℚ) - p) := by
  have hqL := le_last rows L tL hlast hinc q tq hq
  rw [get_off1 lmax header columns reference lines rows hparse hinc L tL hlast hlm a hres κ x h1]
  rcases Nat.lt_or_ge lmax L with h | h
  · rw [extrap_none L lmax _ h]
    exact base_between κ lmax rows hinc p x q tp tq hp hq hpx hxq hql hgap
  · rw [extrap_at L lmax _ (by omega) h, if_neg (by omega)]
    exact base_between κ lmax rows hinc p x q tp tq hp hq hpx hxq hql hgap

/-- **C44** degree 0 missing from the file gets the value of the first degree in the file, before any
change of frame -/
theorem readLove_degree0 (κ : Kind) (q : ℕ) (tq : Triple) (hq : Given rows q tq) (hq0 : 0 < q) (hql : q ≤ lmax)
    (hgap : ∀ c, c < q → Missing rows c) (hL2 : 2 ≤ L) : a.get κ 0 = tq.get κ := by
  rw [get_off1 lmax header columns reference lines rows hparse hinc L tL hlast hlm a hres κ 0 (by omega)]
  rcases Nat.lt_or_ge lmax L with h | h
  · rw [extrap_none L lmax _ h]
    exact base_below κ lmax rows hinc 0 q tq hq hq0 hql hgap
  · rw [extrap_at L lmax _ hL2 h, if_neg (by omega)]
    exact base_below κ lmax rows hinc 0 q tq hq hq0 hql hgap

/-- **C44** from the last degree of the file on, the result is the straight line through the two degrees
before it (a defect at the last degree itself: the value in the file is not used) -/
theorem readLove_beyond (κ : Kind) (t1 t2 : Triple) (hL3 : 3 ≤ L) (hLm : L ≤ lmax)
    (h1 : Given rows (L - 1) t1) (h2 : Given rows (L - 2) t2) (d : ℕ) (hd : L ≤ d) (hdm : d ≤ lmax) :
    a.get κ d = t1.get κ + ((d : ℚ) - (L - 1)) * (t1.get κ - t2.get κ) := by
  rw [get_off1 lmax header columns reference lines rows hparse hinc L tL hlast hlm a hres κ d (by omega),
    extrap_at L lmax _ (by omega) hLm, if_pos ⟨hd, hdm⟩, base_given κ lmax rows hinc _ t1 h1 (by omega),
    base_given κ lmax rows hinc _ t2 h2 (by omega)]
  ring

/-- **C44** (a defect) so the last line of the file is lost whenever it is not on that line -/
theorem readLove_last_lost (κ : Kind) (t1 t2 : Triple) (hL3 : 3 ≤ L) (hLm : L ≤ lmax)
    (h1 : Given rows (L - 1) t1) (h2 : Given rows (L - 2) t2)
    (hbend : tL.get κ - t1.get κ ≠ t1.get κ - t2.get κ) : a.get κ L ≠ tL.get κ := by
  have := readLove_beyond lmax header columns reference lines rows hparse hinc L tL hlast hlm a hres κ t1 t2
    hL3 hLm h1 h2 L le_rfl hLm
  rw [this]
  intro h
  apply hbend
  linarith

/-- **C44** (a defect) truncating inside a gap of the table: the degrees after the last line within the
truncation get its value, not the values interpolated towards the next line -/
theorem readLove_truncated_gap (κ : Kind) (p x : ℕ) (tp : Triple) (hp : Given rows p tp) (hpx : p < x)
    (hx : x ≤ lmax) (hgap : ∀ c, p < c → c ≤ lmax → Missing rows c) (hL : lmax < L) (h1 : x ≠ 1) :
    a.get κ x = tp.get κ := by
  rw [get_off1 lmax header columns reference lines rows hparse hinc L tL hlast hlm a hres κ x h1,
    extrap_none L lmax _ hL]
  exact base_above κ lmax rows hinc p x tp hp hpx hx hgap

/-- **C44** degree 1 is the file's value minus one number, the same for all three kinds, determined by the
reference frame from the file's degree 1 -/
theorem readLove_degree1 (t : Triple) (hg : Given rows 1 t) (hL2 : 2 ≤ L) :
    ∃ α, alpha reference t.hl t.ll = some α ∧ ∀ κ, a.get κ 1 = t.get κ - α := by
  have hk := known_of_some lmax header columns reference lines rows hparse L tL hlast hlm a hres
  have hb : ∀ κ, extrapolate L lmax (base κ lmax rows) 1 = t.get κ := by
    intro κ
    rcases Nat.lt_or_ge lmax L with h | h
    · rw [extrap_none L lmax _ h]; exact base_given κ lmax rows hinc 1 t hg hlm
    · rw [extrap_at L lmax _ hL2 h, if_neg (by omega)]; exact base_given κ lmax rows hinc 1 t hg hlm
  rw [readLove_eq lmax header columns reference lines rows hparse hinc L tL hlast hlm hk, hb .h, hb .l] at hres
  split at hres
  · exact absurd hres (by simp)
  · rename_i α hα
    rw [Option.some.injEq] at hres
    refine ⟨α, hα, fun κ => ?_⟩
    have hk2 := hb κ
    rw [← hres]
    cases κ <;> simp [Love.get, shift] <;> exact hk2

end

/-- **C44** reading fails for an unknown frame (when there is a degree 1 to change) -/
theorem readLove_unknown (lmax header : ℕ) (columns : List String) (reference : String) (lines : List (List Tok))
    (hlm : 1 ≤ lmax) (hr : reference.toUpper ∉ ["CF", "CL", "CH", "CM", "CE"]) :
    readLove lmax header columns reference lines = none := by
  have ha : ∀ x y, alpha reference x y = none := by
    intro x y
    simp only [List.mem_cons, List.not_mem_nil, or_false, not_or] at hr
    unfold alpha
    rw [if_neg hr.1, if_neg hr.2.1, if_neg hr.2.2.1, if_neg hr.2.2.2.1, if_neg hr.2.2.2.2]
  unfold readLove
  split
  · rfl
  · rw [if_neg (by omega)]
    split
    · rfl
    · split
      · rfl
      · simp only [ha]

/-- **C44** the columns are found by name: a line of numbers in the order of `COLUMNS` gives the degree and
the three values under those names, whatever the order and whatever other columns there are -/
theorem parseRow_columns (columns : List String) (row : List Tok) (d : ℕ) (h k l : ℚ)
    (hl0 : "l" ∈ columns) (hl1 : "hl" ∈ columns) (hl2 : "kl" ∈ columns) (hl3 : "ll" ∈ columns)
    (e0 : row[columns.idxOf "l"]? = some (.num d)) (e1 : row[columns.idxOf "hl"]? = some (.num h))
    (e2 : row[columns.idxOf "kl"]? = some (.num k)) (e3 : row[columns.idxOf "ll"]? = some (.num l)) :
    parseRow columns row = some (d, ⟨h, k, l⟩) := by
  have hd : degreeOf (.num (d : ℚ)) = some d := by
    have h1 : ((d : ℕ) : ℚ).den = 1 := Rat.den_natCast d
    have h2 : ((d : ℕ) : ℚ).num = d := Rat.num_natCast d
    simp [degreeOf]
  simp only [parseRow, column, if_pos hl0, if_pos hl1, if_pos hl2, if_pos hl3, e0, e1, e2, e3, Option.bind_some, hd,
    value]

/-- a table in the column order of Wang et al. with a gap, read to a degree beyond its end: the degree 0
is a copy, 3 is interpolated, 5 (the last in the file, 100) is replaced by the line through 3 and 4 -/
example : (readLove 6 1 ["l", "hl", "ll", "kl", "nl", "nk"] "cf"
    [[], [.num 1, .num (-3), .num 6, .num 0, .num 0, .num 0], [.num 2, .num 1, .num 2, .num 3, .num 0, .num 0],
      [.num 4, .num 5, .num 4, .num 9, .num 0, .num 0], [.num 5, .num 100, .num 100, .num 100, .num 0, .num 0]]).map
    (fun a => (List.range 7).map fun d => (a.hl d, a.kl d, a.ll d)) =
    some [(-3, 0, 6), (-6, -3, 3), (1, 3, 2), (3, 6, 3), (5, 9, 4), (7, 12, 5), (9, 15, 6)] := by
  decide +kernel

/-- the hypotheses of the theorems above for that table -/
example : ∃ rows : List (ℕ × Triple),
    (([[], [.num 1, .num (-3), .num 6, .num 0], [.num 2, .num 1, .num 2, .num 3], [.num 4, .num 5, .num 4, .num 9],
      [.num 5, .num 100, .num 100, .num 100]] : List (List Tok)).drop 1).mapM (parseRow ["l", "hl", "ll", "kl"]) =
      some rows ∧ (rows.map Prod.fst).Pairwise (· < ·) ∧ rows.getLast? = some (5, ⟨100, 100, 100⟩) ∧
    Given rows 4 ⟨5, 9, 4⟩ := by
  refine ⟨[(1, ⟨-3, 0, 6⟩), (2, ⟨1, 3, 2⟩), (4, ⟨5, 9, 4⟩), (5, ⟨100, 100, 100⟩)], ?_, ?_, ?_, ?_⟩ <;>
    decide +kernel

/-! ## reference frames -/

theorem alpha_names (x y : ℚ) : alpha "CF" x y = some ((x + 2 * y) / 3) ∧ alpha "CL" x y = some y ∧
    alpha "CH" x y = some x ∧ alpha "CM" x y = some 1 ∧ alpha "CE" x y = some 0 := by
  unfold alpha
  rw [show "CF".toUpper = "CF" from by decide +kernel, show "CL".toUpper = "CL" from by decide +kernel,
    show "CH".toUpper = "CH" from by decide +kernel, show "CM".toUpper = "CM" from by decide +kernel,
    show "CE".toUpper = "CE" from by decide +kernel]
  simp

theorem transform_of (r : String) (a : Love) (α : ℚ) (h : alpha r (a.hl 1) (a.ll 1) = some α) :
    transform r a = some (Love.map (shift α) a, r) := by
  unfold transform; rw [h]; rfl

/-- **C44** changing the frame touches degree 1 only and moves the three Love numbers by the same amount,
so their differences are kept -/
theorem transform_differences (reference : String) (a b : Love) (r : String)
    (h : transform reference a = some (b, r)) :
    r = reference ∧ (∀ κ d, d ≠ 1 → b.get κ d = a.get κ d) ∧
      b.hl 1 - b.kl 1 = a.hl 1 - a.kl 1 ∧ b.hl 1 - b.ll 1 = a.hl 1 - a.ll 1 ∧ b.kl 1 - b.ll 1 = a.kl 1 - a.ll 1 := by
  unfold transform at h
  cases hα : alpha reference (a.hl 1) (a.ll 1) with
  | none => rw [hα] at h; exact absurd h (by simp)
  | some α =>
    rw [hα, Option.map_some, Option.some.injEq, Prod.mk.injEq] at h
    obtain ⟨h1, h2⟩ := h
    rw [← h1]
    refine ⟨h2.symm, fun κ d hd => by rw [get_map]; simp [shift, Function.update_of_ne hd], ?_, ?_, ?_⟩ <;>
      simp [Love.map, shift]

/-- **C44** what each frame fixes: no mean displacement of the surface in CF, no horizontal one in CL, no
vertical one in CH, the degree-1 potential lowered by one in CM, nothing in CE -/
theorem transform_frames (a : Love) :
    (∃ b, transform "CF" a = some (b, "CF") ∧ b.hl 1 + 2 * b.ll 1 = 0) ∧
    (∃ b, transform "CL" a = some (b, "CL") ∧ b.ll 1 = 0) ∧
    (∃ b, transform "CH" a = some (b, "CH") ∧ b.hl 1 = 0) ∧
    (∃ b, transform "CM" a = some (b, "CM") ∧ b.kl 1 = a.kl 1 - 1) ∧
    (∃ b, transform "CE" a = some (b, "CE") ∧ ∀ κ d, b.get κ d = a.get κ d) := by
  obtain ⟨h1, h2, h3, h4, h5⟩ := alpha_names (a.hl 1) (a.ll 1)
  refine ⟨⟨_, transform_of _ a _ h1, ?_⟩, ⟨_, transform_of _ a _ h2, ?_⟩, ⟨_, transform_of _ a _ h3, ?_⟩,
    ⟨_, transform_of _ a _ h4, ?_⟩, ⟨_, transform_of _ a _ h5, ?_⟩⟩
  · simp [Love.map, shift]; ring
  · simp [Love.map, shift]
  · simp [Love.map, shift]
  · simp [Love.map, shift]
  · intro κ d
    rw [get_map]; unfold shift
    simp

/-- **C44** with the usual convention `k1 = 0` in the CE frame, the CM frame has `1 + k1 = 0`: a degree-1
load has no potential there -/
theorem transform_CM_zero (a : Love) (h : a.kl 1 = 0) : ∃ b, transform "CM" a = some (b, "CM") ∧ 1 + b.kl 1 = 0 := by
  obtain ⟨_, _, _, ⟨b, hb, hk⟩, _⟩ := transform_frames a
  exact ⟨b, hb, by rw [hk, h]; ring⟩

/-- **C44** names of frames are not case sensitive -/
theorem alpha_case (r r' : String) (h : r.toUpper = r'.toUpper) (x y : ℚ) : alpha r x y = alpha r' x y := by
  unfold alpha; rw [h]

/-- **C44** the surface frames do not depend on where one starts: going to CF, CL or CH through any frame is
going there directly -/
theorem transform_compose (mid target : String) (ht : target.toUpper ∈ ["CF", "CL", "CH"]) (a b : Love) (r : String)
    (h : transform mid a = some (b, r)) : transform target b = transform target a := by
  unfold transform at h
  cases hα : alpha mid (a.hl 1) (a.ll 1) with
  | none => rw [hα] at h; exact absurd h (by simp)
  | some α =>
    rw [hα, Option.map_some, Option.some.injEq, Prod.mk.injEq] at h
    rw [← h.1]
    have hsh : ∀ (β : ℚ) (v : ℕ → ℚ), shift (β - α) (shift α v) = shift β v := by
      intro β v
      unfold shift
      rw [Function.update_idem, Function.update_self]
      congr 1; ring
    have key : ∀ β, alpha target (a.hl 1) (a.ll 1) = some β →
        alpha target (a.hl 1 - α) (a.ll 1 - α) = some (β - α) := by
      intro β hβ
      simp only [List.mem_cons, List.not_mem_nil, or_false] at ht
      unfold alpha at hβ ⊢
      rcases ht with ht | ht | ht
      · rw [if_pos ht, Option.some.injEq] at hβ
        rw [if_pos ht, ← hβ]; congr 1; ring
      · rw [ht] at hβ ⊢
        simp only [String.reduceEq, if_false, if_true, Option.some.injEq] at hβ ⊢
        rw [← hβ]
      · rw [ht] at hβ ⊢
        simp only [String.reduceEq, if_false, if_true, Option.some.injEq] at hβ ⊢
        rw [← hβ]
    have hsome : ∃ β, alpha target (a.hl 1) (a.ll 1) = some β := by
      simp only [List.mem_cons, List.not_mem_nil, or_false] at ht
      unfold alpha
      rcases ht with ht | ht | ht <;> rw [ht] <;> simp
    obtain ⟨β, hβ⟩ := hsome
    have e1 : (Love.map (shift α) a).hl 1 = a.hl 1 - α := by simp [Love.map, shift]
    have e2 : (Love.map (shift α) a).ll 1 = a.ll 1 - α := by simp [Love.map, shift]
    unfold transform
    rw [e1, e2, key β hβ, hβ]
    simp only [Option.map_some, Love.map, hsh]

/-- **C44** (a defect) going to CM or CE does assume one starts from CE: from CM, "CE" changes nothing but
the label, and a second "CM" moves degree 1 again -/
theorem transform_not_from_CM (a : Love) : ∃ b c d, transform "CM" a = some (b, "CM") ∧
    transform "CE" b = some (c, "CE") ∧ transform "CM" b = some (d, "CM") ∧
    c.kl 1 = a.kl 1 - 1 ∧ d.kl 1 = a.kl 1 - 2 := by
  refine ⟨_, _, _, transform_of _ a _ (alpha_names _ _).2.2.2.1, transform_of _ _ _ (alpha_names _ _).2.2.2.2,
    transform_of _ _ _ (alpha_names _ _).2.2.2.1, ?_, ?_⟩
  · simp [Love.map, shift]
  · simp [Love.map, shift]; ring

/-- **C44** reading in a frame is reading in CE and transforming -/
theorem readLove_transform (lmax header : ℕ) (columns : List String) (reference : String) (lines : List (List Tok))
    (hlm : 1 ≤ lmax) :
    readLove lmax header columns reference lines =
      (readLove lmax header columns "CE" lines).bind fun a => (transform reference a).map Prod.fst := by
  have hs0 : ∀ v : ℕ → ℚ, shift 0 v = v := by intro v; unfold shift; simp
  have hce : ∀ x y, alpha "CE" x y = some 0 := fun x y => (alpha_names x y).2.2.2.2
  unfold readLove
  split
  · rfl
  · rw [if_neg (by omega), if_neg (by omega)]
    split
    · rfl
    · split
      · rfl
      · simp only [hce, Option.bind_some, transform, Love.map, hs0, Option.map_map]
        split
        · rename_i h; rw [h]; rfl
        · rename_i α h; rw [h]; rfl

/-- **C44** without a truncation degree the last line decides: `LMAX` is its degree, 100000 for `inf` -/
theorem resolveLmax_none (columns : List String) (lines : List (List Tok)) (r : List Tok) (t : Tok)
    (h1 : lines.getLast? = some r) (h2 : column columns r "l" = some t) :
    resolveLmax none columns lines = degreeOf t ∧ degreeOf .inf = some 100000 ∧
      ∀ n, resolveLmax (some n) columns lines = some n := by
  refine ⟨?_, rfl, fun n => ?_⟩ <;> simp [resolveLmax, h1, h2]

end Verif.LoveNumbers
