import Verif.SLR.Props

/-!
# Property C76, continued: file names, PO.DAAC, TN-14, LARES and CSR tables
-/
namespace Verif.SLR
open Verif.Time Verif.Time.Spec

/-! ## File names -/

/-- the text is of the form the pattern asks for -/
inductive Fits : List Atom → List Char → Prop
  | nil : Fits [] []
  | lit (c d : Char) (p : List Atom) (w : List Char) (h : c.toLower = d.toLower) (hw : Fits p w) :
      Fits (.lit c :: p) (d :: w)
  | digit (d : Char) (p : List Atom) (w : List Char) (h : d.isDigit = true) (hw : Fits p w) :
      Fits (.digit :: p) (d :: w)
  | digits (ds : List Char) (p : List Atom) (w : List Char) (hne : ds ≠ []) (h : ∀ d ∈ ds, d.isDigit = true)
      (hw : Fits p w) : Fits (.digits :: p) (ds ++ w)

/-- the name contains a text of that form -/
def Has (p : List Atom) (n : List Char) : Prop := ∃ a w b, n = a ++ w ++ b ∧ Fits p w

/-- a run of digits is followed by a letter that is not a digit, or by nothing -/
def Separated : List Atom → Prop
  | [] => True
  | [.digits] => True
  | .digits :: .lit c :: p => (∀ d : Char, d.isDigit = true → c.toLower ≠ d.toLower) ∧ Separated (.lit c :: p)
  | .digits :: _ => False
  | _ :: p => Separated p

theorem takeWhile_digits (cs : List Char) : ∀ d ∈ cs.takeWhile Char.isDigit, d.isDigit = true := by
  intro d hd
  induction cs with
  | nil => simp at hd
  | cons c cs ih =>
    rw [List.takeWhile_cons] at hd
    split at hd
    · rcases List.mem_cons.1 hd with rfl | h
      · assumption
      · exact ih h
    · simp at hd

theorem matchAt_fits : ∀ (p : List Atom) (cs : List Char), matchAt p cs = true → ∃ w b, cs = w ++ b ∧ Fits p w
  | [], cs, _ => ⟨[], cs, rfl, .nil⟩
  | .lit c :: p, [], h => by simp [matchAt] at h
  | .digit :: p, [], h => by simp [matchAt] at h
  | .digits :: p, [], h => by simp [matchAt] at h
  | .lit c :: p, d :: cs, h => by
    simp only [matchAt, Bool.and_eq_true, beq_iff_eq] at h
    obtain ⟨w, b, rfl, hw⟩ := matchAt_fits p cs h.2
    exact ⟨d :: w, b, rfl, .lit c d p w h.1 hw⟩
  | .digit :: p, d :: cs, h => by
    simp only [matchAt, Bool.and_eq_true] at h
    obtain ⟨w, b, rfl, hw⟩ := matchAt_fits p cs h.2
    exact ⟨d :: w, b, rfl, .digit d p w h.1 hw⟩
  | .digits :: p, d :: cs, h => by
    simp only [matchAt, Bool.and_eq_true] at h
    obtain ⟨w, b, hb, hw⟩ := matchAt_fits p _ h.2
    refine ⟨(d :: cs.takeWhile Char.isDigit) ++ w, b, ?_, .digits _ p w (by simp) ?_ hw⟩
    · rw [List.append_assoc, ← hb, List.cons_append, List.takeWhile_append_dropWhile]
    · intro x hx
      rcases List.mem_cons.1 hx with rfl | hx
      · exact h.1
      · exact takeWhile_digits cs x hx

theorem fits_matchAt (p : List Atom) (w : List Char) (hf : Fits p w) : Separated p → ∀ b, matchAt p (w ++ b) = true := by
  induction hf with
  | nil => intro _ b; cases b <;> rfl
  | lit c d p w h hw ih =>
    intro hs b
    simp only [List.cons_append, matchAt, Bool.and_eq_true, beq_iff_eq]
    exact ⟨h, ih (by simpa [Separated] using hs) b⟩
  | digit d p w h hw ih =>
    intro hs b
    simp only [List.cons_append, matchAt, Bool.and_eq_true]
    exact ⟨h, ih (by simpa [Separated] using hs) b⟩
  | digits ds p w hne h hw ih =>
    intro hs b
    cases ds with
    | nil => exact absurd rfl hne
    | cons d ds =>
      simp only [List.cons_append, matchAt, Bool.and_eq_true]
      refine ⟨h d (by simp), ?_⟩
      rw [List.append_assoc, List.dropWhile_append_of_pos (fun x hx => h x (by simp [hx]))]
      cases hw with
      | nil => cases List.dropWhile Char.isDigit ([] ++ b) <;> rfl
      | lit c e p w h' hw' =>
        obtain ⟨hs1, hs2⟩ := (by simpa [Separated] using hs : (∀ d : Char, d.isDigit = true → c.toLower ≠ d.toLower) ∧ _)
        have : e.isDigit = false := by
          by_contra hc
          exact hs1 e (by simpa using hc) h'
        rw [List.cons_append, List.dropWhile_cons_of_neg (by simp [this])]
        exact ih (by simpa [Separated] using hs2) b
      | digit => simp [Separated] at hs
      | digits => simp [Separated] at hs

/-- **C76** the search for a pattern in the file name -/
theorem search_iff (p : List Atom) (hp : Separated p) (n : List Char) : search p n = true ↔ Has p n := by
  unfold search Has
  rw [List.any_eq_true]
  constructor
  · rintro ⟨t, ht, hm⟩
    obtain ⟨a, rfl⟩ := (List.mem_tails _ _).1 ht
    obtain ⟨w, b, rfl, hw⟩ := matchAt_fits p t hm
    exact ⟨a, w, b, by simp, hw⟩
  · rintro ⟨a, w, b, rfl, hw⟩
    exact ⟨w ++ b, by simp [List.mem_tails], fits_matchAt p w hw hp b⟩

theorem fits_lits (s : List Char) (w : List Char) :
    Fits (s.map .lit) w ↔ w.map Char.toLower = s.map Char.toLower := by
  induction s generalizing w with
  | nil =>
    constructor
    · intro h; cases h; rfl
    · intro h
      have : w = [] := by simpa using h
      subst this; exact .nil
  | cons c s ih =>
    constructor
    · intro h
      cases h with
      | lit _ d _ w h hw => simp [h, (ih w).1 hw]
    · intro h
      cases w with
      | nil => simp at h
      | cons d w =>
        simp only [List.map_cons, List.cons.injEq] at h
        exact .lit c d _ w h.1.symm ((ih w).2 h.2)

theorem separated_lits (s : List Char) (p : List Atom) (h : Separated p) : Separated (s.map Atom.lit ++ p) := by
  induction s with
  | nil => exact h
  | cons c s ih => simpa [Separated] using ih

/-- **C76** a plain text is found in the file name whatever the case of the letters -/
theorem search_lits (s : String) (n : List Char) : search (lits s) n = true ↔ Contains s n := by
  have := separated_lits s.toList [] trivial
  rw [List.append_nil] at this
  unfold lits
  rw [search_iff _ this]
  unfold Has Contains
  simp only [fits_lits]

theorem digit_lower (d : Char) (h : d.isDigit = true) : '_'.toLower ≠ d.toLower := by
  intro hc
  have : d.toLower = d := by
    unfold Char.toLower
    have hd : 48 ≤ d.val ∧ d.val ≤ 57 := by simpa [Char.isDigit] using h
    rw [dif_neg]
    intro hx
    have h1 := hx.1
    have h2 := hd.2
    revert h1 h2
    simp only [UInt32.le_iff_toNat_le]
    intro h1 h2
    have : (57 : UInt32).toNat = 57 := rfl
    have : 'A'.val.toNat = 65 := rfl
    omega
  rw [this] at hc
  have h2 : ('_' : Char).toLower = '_' := by decide
  rw [h2] at hc
  subst hc
  exact absurd h (by decide)

/-- `C20_RL` and digits -/
def csrC20Name : List Atom := lits "C20_RL" ++ [.digits]
/-- `GFZ_RL`, digits and `_C20_SLR` -/
def gfzC20Name : List Atom := lits "GFZ_RL" ++ [.digits] ++ lits "_C20_SLR"

/-- **C76** which files `C20` reads how -/
theorem kindC20_iff (n : List Char) :
    (kindC20 n = .csr ↔ Has csrC20Name n) ∧
    (kindC20 n = .gfz ↔ ¬ Has csrC20Name n ∧ Has gfzC20Name n) ∧
    (kindC20 n = .gravis ↔ ¬ Has csrC20Name n ∧ ¬ Has gfzC20Name n ∧ Contains "GRAVIS-2B_GFZOP" n) ∧
    (kindC20 n = .tn ↔ ¬ Has csrC20Name n ∧ ¬ Has gfzC20Name n ∧ ¬ Contains "GRAVIS-2B_GFZOP" n ∧
      (Contains "TN-11" n ∨ Contains "TN-14" n)) ∧
    (kindC20 n = .podaac ↔ ¬ Has csrC20Name n ∧ ¬ Has gfzC20Name n ∧ ¬ Contains "GRAVIS-2B_GFZOP" n ∧
      ¬ Contains "TN-11" n ∧ ¬ Contains "TN-14" n) := by
  have s1 : Separated csrC20Name := separated_lits _ _ (by simp [Separated])
  have s2 : Separated gfzC20Name := by
    unfold gfzC20Name
    rw [List.append_assoc]
    refine separated_lits _ _ ?_
    have : lits "_C20_SLR" = .lit '_' :: lits "C20_SLR" := rfl
    rw [List.singleton_append, this]
    exact ⟨digit_lower, by simpa [lits] using separated_lits "_C20_SLR".toList [] trivial⟩
  unfold kindC20
  have e1 := search_iff _ s1 n
  have e2 := search_iff _ s2 n
  unfold csrC20Name at *
  unfold gfzC20Name at *
  simp only [← search_lits, ← e1, ← e2]
  split_ifs with a b c d <;> simp_all
  rcases d with d | d <;> simp [d]

/-- **C76** which files `C30` reads how -/
theorem kindC30_iff (n : List Char) :
    (kindC30 n = .tn ↔ Contains "TN-14" n) ∧
    (kindC30 n = .lares ↔ ¬ Contains "TN-14" n ∧ Contains "C30_LARES" n) ∧
    (kindC30 n = .gravis ↔ ¬ Contains "TN-14" n ∧ ¬ Contains "C30_LARES" n ∧ Contains "GRAVIS-2B_GFZOP" n) ∧
    (kindC30 n = .monthly ↔ ¬ Contains "TN-14" n ∧ ¬ Contains "C30_LARES" n ∧ ¬ Contains "GRAVIS-2B_GFZOP" n) := by
  unfold kindC30
  simp only [← search_lits]
  split_ifs <;> simp_all

/-- **C76** which files `C40` reads how -/
theorem kindC40_iff (n : List Char) :
    (kindC40 n = .weekly ↔ Contains "gsfc_slr_5x5c61s61" n) ∧
    (kindC40 n = .lares ↔ ¬ Contains "gsfc_slr_5x5c61s61" n ∧ Contains "C40_LARES" n) ∧
    (kindC40 n = .monthly ↔ ¬ Contains "gsfc_slr_5x5c61s61" n ∧ ¬ Contains "C40_LARES" n) := by
  unfold kindC40
  simp only [← search_lits]
  split_ifs <;> simp_all

/-- **C76** which files `C50` reads how -/
theorem kindC50_iff (n : List Char) :
    (kindC50 n = .gsfc ↔ Contains "GSFC_SLR_C20_C30_C50" n) ∧
    (kindC50 n = .weekly ↔ ¬ Contains "GSFC_SLR_C20_C30_C50" n ∧ Contains "gsfc_slr_5x5c61s61" n) ∧
    (kindC50 n = .lares ↔ ¬ Contains "GSFC_SLR_C20_C30_C50" n ∧ ¬ Contains "gsfc_slr_5x5c61s61" n ∧
      Contains "C50_LARES" n) ∧
    (kindC50 n = .monthly ↔ ¬ Contains "GSFC_SLR_C20_C30_C50" n ∧ ¬ Contains "gsfc_slr_5x5c61s61" n ∧
      ¬ Contains "C50_LARES" n) := by
  unfold kindC50
  simp only [← search_lits]
  split_ifs <;> simp_all

/-- `GSFC_C2`, digit, `_S2`, digit -/
def gsfcCS2Name : List Atom := lits "GSFC_C2" ++ [.digit] ++ lits "_S2" ++ [.digit]
/-- `C2`, digit, `_S2`, digit, `_RL`, two digits -/
def csrCS2Name : List Atom := lits "C2" ++ [.digit] ++ lits "_S2" ++ [.digit] ++ lits "_RL" ++ [.digit, .digit]

/-- **C76** which files `CS2` reads how -/
theorem kindCS2_iff (n : List Char) :
    (kindCS2 n = .gsfc7 ↔ Has gsfcCS2Name n) ∧
    (kindCS2 n = .weekly ↔ ¬ Has gsfcCS2Name n ∧ Contains "gsfc_slr_5x5c61s61" n) ∧
    (kindCS2 n = .csr ↔ ¬ Has gsfcCS2Name n ∧ ¬ Contains "gsfc_slr_5x5c61s61" n ∧ Has csrCS2Name n) ∧
    (kindCS2 n = .gravis ↔ ¬ Has gsfcCS2Name n ∧ ¬ Contains "gsfc_slr_5x5c61s61" n ∧ ¬ Has csrCS2Name n ∧
      Contains "GRAVIS-2B_GFZOP" n) ∧
    (kindCS2 n = .unknown ↔ ¬ Has gsfcCS2Name n ∧ ¬ Contains "gsfc_slr_5x5c61s61" n ∧ ¬ Has csrCS2Name n ∧
      ¬ Contains "GRAVIS-2B_GFZOP" n) := by
  have s1 : Separated gsfcCS2Name := by
    unfold gsfcCS2Name lits; simp [Separated]
  have s2 : Separated csrCS2Name := by
    unfold csrCS2Name lits; simp [Separated]
  have e1 := search_iff _ s1 n
  have e2 := search_iff _ s2 n
  unfold kindCS2
  unfold gsfcCS2Name at *
  unfold csrCS2Name at *
  simp only [← search_lits, ← e1, ← e2]
  split_ifs <;> simp_all

example : kindC20 "C20_RL06.txt".toList = .csr ∧ kindC20 "GFZ_RL06_C20_SLR.dat".toList = .gfz ∧
    kindC20 "TN-14_C30_C20_GSFC_SLR.txt".toList = .tn ∧ kindC20 "TN-07_C20_SLR.txt".toList = .podaac ∧
    kindC20 "GRAVIS-2B_GFZOP_GRACE+SLR_LOW_DEGREES_0002.dat".toList = .gravis ∧
    kindCS2 "C21_S21_RL06.txt".toList = .csr := by decide +kernel

/-! ## Months -/

/-- **C76** when no two solutions have the same nearest month, no month is changed -/
theorem months_distinct (rs : List Rec) (h : MonthsOk rs) (hn : (rs.map fun r => nearestMonth r.time).Nodup) :
    ∀ r ∈ rs, r.month = nearestMonth r.time := by
  unfold MonthsOk at h
  rw [adjustMonths_nodup _ hn] at h
  intro r hr
  exact List.map_inj_left.1 h r hr

/-- **C76** a record of a solution that starts in the first 14 days of a month has that month's number, when
every month is there once -/
theorem month_of_record (rs : List Rec) (h : MonthsOk rs) (hn : (rs.map fun r => nearestMonth r.time).Nodup)
    (r : Rec) (hr : r ∈ rs) (y m d h' : ℤ) (hv : Valid y m d) (h0 : 0 ≤ h') (h1 : h' ≤ 23) (hd : d ≤ 14)
    (ht : r.time = y + ((dayNumber y m d - dayNumber y 1 1 : ℤ) + (h' : ℚ) / 24) / yearLen y) :
    r.month = 12 * (y - 2002) + m := by
  rw [months_distinct rs h hn r hr, (month_of_start y m d h' hv h0 h1 r.time ht).1 hd]

theorem finish_gen {A : Type} (mo : Rec → ℤ) (hmo : ∀ r g, mo { r with month := g } = mo r) (R : A → Rec → Prop)
    (hR : ∀ a r g, R a r → R a { r with month := g })
    (as : List A) (rs : List Rec) (h : List.Forall₂ (fun a r => R a r ∧ r.month = mo r) as rs) :
    List.Forall₂ R as (finish rs) ∧ (finish rs).map Rec.month = adjustMonths ((finish rs).map mo) := by
  have hlen : (adjustMonths (rs.map Rec.month)).length = rs.length := by rw [adjustMonths_length]; simp
  have key : ∀ (as : List A) (rs : List Rec) (gs : List ℤ), gs.length = rs.length →
      List.Forall₂ (fun a r => R a r ∧ r.month = mo r) as rs →
      List.Forall₂ R as ((rs.zip gs).map fun p => { p.1 with month := p.2 }) ∧
      (((rs.zip gs).map fun p => ({ p.1 with month := p.2 } : Rec)).map Rec.month = gs) ∧
      (((rs.zip gs).map fun p => ({ p.1 with month := p.2 } : Rec)).map mo = rs.map Rec.month) := by
    intro as rs gs hl hf
    induction hf generalizing gs with
    | nil => have : gs = [] := by simpa using hl
             subst this; exact ⟨.nil, rfl, rfl⟩
    | @cons a r as rs h1 _ ih =>
      obtain ⟨g, gs, rfl⟩ : ∃ g gs', gs = g :: gs' := by
        cases gs with
        | nil => simp at hl
        | cons g gs => exact ⟨g, gs, rfl⟩
      obtain ⟨i1, i2, i3⟩ := ih gs (by simpa using hl)
      refine ⟨.cons (hR _ _ _ h1.1) i1, ?_, ?_⟩
      · simpa using i2
      · simpa [h1.2, hmo] using i3
  obtain ⟨k1, k2, k3⟩ := key as rs _ hlen h
  refine ⟨k1, ?_⟩
  unfold finish
  rw [k2, k3]

/-- adjusting distinct months changes nothing -/
theorem finish_nodup (rs : List Rec) (h : (rs.map Rec.month).Nodup) : finish rs = rs := by
  unfold finish
  rw [adjustMonths_nodup _ h]
  clear h
  induction rs with
  | nil => rfl
  | cons r rs ih => simp only [List.map_cons, List.zip_cons_cons, ih]

/-! ## The PO.DAAC file -/

theorem unique_sorted (ms : List ℤ) : (unique ms).Pairwise (· < ·) ∧ ∀ g, g ∈ unique ms ↔ g ∈ ms := by
  unfold unique
  have hp := List.perm_insertionSort (· ≤ ·) ms.dedup
  have hs := List.pairwise_insertionSort (· ≤ ·) ms.dedup
  have hn : (ms.dedup.insertionSort (· ≤ ·)).Nodup := hp.nodup_iff.2 (List.nodup_dedup ms)
  refine ⟨?_, fun g => by rw [hp.mem_iff, List.mem_dedup]⟩
  exact (hs.and hn).imp fun h => lt_of_le_of_ne h.1 h.2

/-- what the reader makes of the lines `ls` of one month: the only line; the flagged one of two; zeros for
three or more -/
inductive Picked : List (Rec × Bool) → ℤ → Rec → Prop
  | one (r : Rec) (b : Bool) (g : ℤ) : Picked [(r, b)] g r
  | fst (r s : Rec) (g : ℤ) : Picked [(r, true), (s, false)] g r
  | snd (r s : Rec) (g : ℤ) : Picked [(r, false), (s, true)] g s
  | more (ls : List (Rec × Bool)) (g : ℤ) (h : 3 ≤ ls.length) : Picked ls g ⟨0, g, 0, 0⟩

theorem pick_spec (rows : List (Rec × Bool)) (g : ℤ) (hg : g ∈ rows.map fun r => r.1.month) :
    (∀ r, pick rows g = some r → Picked (rows.filter fun r => decide (r.1.month = g)) g r) ∧
    (pick rows g = none ↔ ∃ a b : Rec × Bool, (rows.filter fun r => decide (r.1.month = g)) = [a, b] ∧ a.2 = b.2) := by
  have hne : (rows.filter fun r => decide (r.1.month = g)) ≠ [] := by
    obtain ⟨r, hr, he⟩ := List.mem_map.1 hg
    exact List.ne_nil_of_mem (List.mem_filter.2 ⟨hr, by simpa using he⟩)
  unfold pick
  generalize (rows.filter fun r => decide (r.1.month = g)) = ls at hne ⊢
  match ls, hne with
  | [(r, b)], _ => simp; exact .one r b g
  | [(a, fa), (b, fb)], _ =>
    cases fa <;> cases fb
    · simp
    · simp; exact .snd a b g
    · simp; exact .fst a b g
    · simp
  | a :: b :: c :: t, _ => simp; exact .more _ g (by simp)

theorem pick_month (rows : List (Rec × Bool)) (g : ℤ) (r : Rec) (h : pick rows g = some r) : r.month = g := by
  unfold pick at h
  split at h
  · rename_i x hx
    have : x ∈ rows.filter fun r => decide (r.1.month = g) := by rw [hx]; simp
    have := (List.mem_filter.1 this).2
    simp only [Option.some.injEq] at h
    subst h; simpa using this
  · rename_i a b hx
    split at h
    · rename_i y hy
      have hm : y ∈ [a, b].filter fun r => r.2 := by rw [hy]; simp
      have : y ∈ rows.filter fun r => decide (r.1.month = g) := by rw [hx]; exact List.mem_of_mem_filter hm
      have := (List.mem_filter.1 this).2
      simp only [Option.some.injEq] at h
      subst h; simpa using this
    · simp at h
  · simp only [Option.some.injEq] at h
    subst h; rfl

theorem mapM_some_iff {A B : Type} (f : A → Option B) : ∀ (as : List A) (bs : List B),
    as.mapM f = some bs ↔ List.Forall₂ (fun a b => f a = some b) as bs
  | [], bs => by
    cases bs with
    | nil => simp
    | cons b bs => simp
  | a :: as, bs => by
    rw [List.mapM_cons]
    cases hfa : f a with
    | none =>
      simp only [Option.bind_eq_bind, Option.bind_none]
      constructor
      · intro h; simp at h
      · intro h; cases h with | cons h1 _ => simp [hfa] at h1
    | some b =>
      simp only [Option.bind_eq_bind, Option.bind_some]
      cases hm : as.mapM f with
      | none =>
        simp only [Option.bind_none]
        constructor
        · intro h; simp at h
        · intro h
          cases h with
          | cons h1 h2 => rw [(mapM_some_iff f as _).2 h2] at hm; simp at hm
      | some cs =>
        simp only [Option.bind_some, Option.pure_def, Option.some.injEq]
        constructor
        · rintro rfl; exact .cons hfa ((mapM_some_iff f as cs).1 hm)
        · intro h
          cases h with
          | cons h1 h2 =>
            rw [(mapM_some_iff f as _).2 h2] at hm
            rw [hfa] at h1
            simp only [Option.some.injEq] at h1 hm
            rw [h1, hm]

theorem mapM_none_iff {A B : Type} (f : A → Option B) : ∀ (as : List A), as.mapM f = none ↔ ∃ a ∈ as, f a = none
  | [] => by simp
  | a :: as => by
    rw [List.mapM_cons]
    cases hfa : f a with
    | none => simp [hfa]
    | some b =>
      have := mapM_none_iff f as
      cases hm : as.mapM f with
      | none => simp [hfa, ← this, hm]
      | some cs => simp [hfa, ← this, hm]

theorem forall₂_map_eq {A B C : Type} (R : A → B → Prop) (f : A → C) (g : B → C) (h : ∀ a b, R a b → g b = f a)
    (as : List A) (bs : List B) (hf : List.Forall₂ R as bs) : bs.map g = as.map f := by
  induction hf with
  | nil => rfl
  | cons h1 _ ih => simp [h _ _ h1, ih]

section
variable (f : File) (AOD : Bool) (header : List Line) (product : Line) (body : List (Line × List Lit))

/-- **C76** the PO.DAAC file: every line with numbers is a solution; the months of the output are strictly
increasing, are exactly the nearest months of the solutions, and each has its only solution, or the one with an
asterisk out of two (or zeros when there are more than two); the reader fails exactly if some month has two solutions
which are both with or both without an asterisk -/
theorem c20_podaac (hk : kindC20 f.name = .podaac) (hf : f.lines = header ++ product :: body.map Prod.fst)
    (hh : ∀ l ∈ header, upperProduct l = false) (hp : upperProduct product = true)
    (hrow : ∀ p ∈ body, Row p.1 p.2) (hcol : ∀ p ∈ body, p.2 ≠ [] → MjdCols 2 4 p.2) :
    ∃ es : List (Rec × Bool),
      List.Forall₂ (fun p e => MjdEntry 2 4 p.2 e.1 ∧ e.1.month = nearestMonth e.1.time ∧ (e.2 = true ↔ '*' ∈ p.1))
        (body.filter fun p => !p.2.isEmpty) es ∧
      (∀ rs, c20 f AOD true = some rs →
        (rs.map Rec.month).Pairwise (· < ·) ∧
        (∀ g, g ∈ rs.map Rec.month ↔ g ∈ es.map fun e => nearestMonth e.1.time) ∧
        ∀ r ∈ rs, Picked (es.filter fun e => decide (nearestMonth e.1.time = r.month)) r.month r) ∧
      (c20 f AOD true = none ↔ ∃ (g : ℤ) (a b : Rec × Bool),
        (es.filter fun e => decide (nearestMonth e.1.time = g)) = [a, b] ∧ a.2 = b.2) := by
  obtain ⟨es, hes, hall⟩ := mapM_forall₂ Prod.fst (fun l => (mjdLine 2 4 l).map fun r => (r, starFlag l))
    (fun (p : Line × List Lit) (e : Rec × Bool) =>
      MjdEntry 2 4 p.2 e.1 ∧ e.1.month = nearestMonth e.1.time ∧ (e.2 = true ↔ '*' ∈ p.1))
    (body.filter fun p => !p.2.isEmpty) (by
      intro p hp
      rw [List.mem_filter] at hp
      have hne : p.2 ≠ [] := by simpa using hp.2
      obtain ⟨r, hr, he⟩ := mjdLine_entry 2 4 p.1 p.2 (hrow p hp.1) (hcol p hp.1 hne)
      exact ⟨(r, starFlag p.1), by simp [hr], he.1, he.2, by simp [starFlag]⟩)
  have hmo : ∀ e ∈ es, e.1.month = nearestMonth e.1.time := by
    intro e he
    have h2 : List.Forall₂ (fun (p : Line × List Lit) (e : Rec × Bool) => e.1.month = nearestMonth e.1.time)
      (body.filter fun p => !p.2.isEmpty) es := hall.imp fun _ _ h => h.2.1
    clear hes hall
    generalize (body.filter fun p => !p.2.isEmpty) = bs at h2
    induction h2 with
    | nil => simp at he
    | cons h1 _ ih =>
      rcases List.mem_cons.1 he with rfl | he
      · exact h1
      · exact ih he
  have hfil : ∀ g : ℤ, (es.filter fun e => decide (nearestMonth e.1.time = g)) =
      es.filter fun e => decide (e.1.month = g) := by
    intro g
    exact List.filter_congr fun e he => by rw [hmo e he]
  have hmap : (es.map fun e => nearestMonth e.1.time) = es.map fun e => e.1.month :=
    List.map_congr_left fun e he => (hmo e he).symm
  have hc : c20 f AOD true = ((unique (es.map fun e => e.1.month)).mapM (pick es)).map finish := by
    unfold c20
    rw [hk]
    simp only
    unfold c20Podaac
    rw [hf, skipHeader_found upperProduct header product _ hh hp]
    unfold readLines
    simp only [Option.bind_eq_bind, Option.bind_some]
    rw [filter_map_fst (more 0) (fun xs => !xs.isEmpty) body (by
      intro p hp; rw [more_row 0 p.1 p.2 (hrow p hp)]; cases p.2 <;> simp)]
    rw [hes, Option.bind_some]
  obtain ⟨u1, u2⟩ := unique_sorted (es.map fun e => e.1.month)
  refine ⟨es, hall, ?_, ?_⟩
  · intro rs hrs
    rw [hc] at hrs
    obtain ⟨rs', h1, h2⟩ := Option.map_eq_some_iff.1 hrs
    have h1' := (mapM_some_iff _ _ _).1 h1
    have hm : rs'.map Rec.month = unique (es.map fun e => e.1.month) := by
      have := forall₂_map_eq _ id Rec.month (fun a b h => pick_month es a b h) _ _ h1'
      rw [this]; simp
    have hnd : (rs'.map Rec.month).Nodup := by rw [hm]; exact u1.imp fun h => ne_of_lt h
    rw [finish_nodup rs' hnd] at h2
    subst h2
    refine ⟨by rw [hm]; exact u1, fun g => by rw [hm, hmap, u2], ?_⟩
    intro r hr
    rw [hfil]
    have : pick es r.month = some r := by
      clear hrs h1 hm hnd
      generalize unique (es.map fun e => e.1.month) = us at h1'
      induction h1' with
      | nil => simp at hr
      | @cons a b _ _ h1 _ ih =>
        rcases List.mem_cons.1 hr with rfl | hr
        · rw [pick_month es a r h1]; exact h1
        · exact ih hr
    have hg : r.month ∈ es.map fun e => e.1.month := by
      rw [← u2, ← hm]; exact List.mem_map_of_mem hr
    exact (pick_spec es r.month hg).1 r this
  · rw [hc, Option.map_eq_none_iff, mapM_none_iff]
    constructor
    · rintro ⟨g, hg, hn⟩
      rw [u2] at hg
      obtain ⟨a, b, h1, h2⟩ := (pick_spec es g hg).2.1 hn
      exact ⟨g, a, b, by rw [hfil, h1], h2⟩
    · rintro ⟨g, a, b, h1, h2⟩
      rw [hfil] at h1
      have hg : g ∈ es.map fun e => e.1.month := by
        have : a ∈ es.filter fun e => decide (e.1.month = g) := by rw [h1]; simp
        rw [List.mem_filter] at this
        exact List.mem_map.2 ⟨a, this.1, by simpa using this.2⟩
      exact ⟨g, (u2 g).2 hg, (pick_spec es g hg).2.2 ⟨a, b, h1, h2⟩⟩

end

end Verif.SLR
