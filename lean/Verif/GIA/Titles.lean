import Verif.GIA.Model
import Mathlib.Tactic.IntervalCases

/-! # Lemmas on the file name patterns of read_GIA_model.py -/
namespace Verif.GIA

theorem match_lit (s : String) (is : List Item) (r : List Char) :
    matchItems (lit s ++ is) (s.toList ++ r) = matchItems is r := by
  unfold lit
  induction s.toList with
  | nil => rfl
  | cons c t ih => simp [matchItems, ih]

theorem match_lit_iff (s : String) (is : List Item) (r : List Char) (h : ¬ s.toList <+: r) :
    matchItems (lit s ++ is) r = none := by
  unfold lit
  generalize s.toList = t at h
  induction t generalizing r with
  | nil => simp at h
  | cons c t ih =>
    cases r with
    | nil => rfl
    | cons a r =>
      simp only [List.map_cons, List.cons_append, matchItems]
      by_cases hac : a = c
      · subst hac
        simp only [beq_self_eq_true, if_true]
        exact ih r fun hp => h (by simpa using hp)
      · rw [if_neg (by simpa using hac)]

theorem range_split (N k : ℕ) (h : k < N) :
    ∃ L, List.range N = List.range k ++ k :: L ∧ ∀ x ∈ L, k < x ∧ x < N := by
  refine ⟨(List.range (N - k - 1)).map (fun i => k + 1 + i), ?_, ?_⟩
  · have e1 : N = k + (N - k) := by omega
    have e2 : N - k = (N - k - 1) + 1 := by omega
    conv_lhs => rw [e1, List.range_add, e2, List.range_succ_eq_map]
    simp [Function.comp_def, Nat.add_comm, Nat.add_left_comm]
  · intro x hx
    simp at hx
    obtain ⟨a, ha, rfl⟩ := hx
    omega

/-- the shortest run for which the rest matches -/
theorem match_lazy (p : Char → Bool) (is : List Item) (r : List Char) (k : ℕ) (q : List (List Char) × List Char)
    (hk : k ≤ (r.takeWhile p).length) (hq : matchItems is (r.drop k) = some q)
    (hn : ∀ n < k, matchItems is (r.drop n) = none) :
    matchItems (.run p false 0 :: is) r = some (r.take k :: q.1, q.2) := by
  obtain ⟨L, hL, -⟩ := range_split ((r.takeWhile p).length + 1) k (by omega)
  simp only [matchItems, Bool.false_eq_true, if_false, hL, List.filter_append, List.filter_cons, Nat.zero_le, decide_true,
    if_true]
  rw [List.findSome?_append, List.findSome?_cons, hq, List.findSome?_eq_none_iff.mpr ?_]
  · rfl
  · intro x hx
    simp at hx
    rw [hn x hx]
    rfl

/-- the longest run for which the rest matches -/
theorem match_greedy (p : Char → Bool) (min : ℕ) (is : List Item) (r : List Char) (k : ℕ)
    (q : List (List Char) × List Char) (hmin : min ≤ k)
    (hk : k ≤ (r.takeWhile p).length) (hq : matchItems is (r.drop k) = some q)
    (hn : ∀ n, k < n → n ≤ (r.takeWhile p).length → matchItems is (r.drop n) = none) :
    matchItems (.run p true min :: is) r = some (r.take k :: q.1, q.2) := by
  obtain ⟨L, hL, hL'⟩ := range_split ((r.takeWhile p).length + 1) k (by omega)
  simp only [matchItems, if_true, hL, List.filter_append, List.filter_cons, hmin, decide_true,
    if_true, List.reverse_append, List.reverse_cons, List.append_assoc, List.singleton_append]
  rw [List.findSome?_append, List.findSome?_cons, hq, List.findSome?_eq_none_iff.mpr ?_]
  · rfl
  · intro x hx
    simp only [List.mem_reverse, List.mem_filter] at hx
    have := hL' x hx.1
    rw [hn x this.1 (by omega)]
    rfl

theorem takeWhile_app (p : Char → Bool) (a b : List Char) (h : ∀ c ∈ a, p c = true) :
    a.length ≤ ((a ++ b).takeWhile p).length := by
  induction a with
  | nil => simp
  | cons c t ih =>
    have := h c (by simp)
    simp only [List.cons_append, List.takeWhile_cons, this, if_true, List.length_cons]
    have := ih fun x hx => h x (by simp [hx])
    omega

theorem takeWhile_stop (p : Char → Bool) (a : List Char) (c : Char) (b : List Char) (h : ∀ c ∈ a, p c = true)
    (hc : p c = false) : ((a ++ c :: b).takeWhile p).length = a.length := by
  induction a with
  | nil => simp [hc]
  | cons d t ih =>
    have := h d (by simp)
    simp only [List.cons_append, List.takeWhile_cons, this, if_true, List.length_cons]
    rw [ih fun x hx => h x (by simp [hx])]

theorem takeWhile_all (p : Char → Bool) (a : List Char) (h : ∀ c ∈ a, p c = true) : a.takeWhile p = a := by
  induction a with
  | nil => rfl
  | cons c t ih => rw [List.takeWhile_cons, h c (by simp)]; simp [ih fun x hx => h x (by simp [hx])]

theorem any_of_ne (x : List Char) (h : '\n' ∉ x) : ∀ c ∈ x, anyCh c = true := by
  intro c hc
  simp only [anyCh, bne_iff_ne]
  rintro rfl
  exact h hc

/-- a single match from the beginning of the text -/
theorem findall_one (is : List Item) (r : List Char) (g : List (List Char)) (t : List Char)
    (h : matchItems is r = some (g, t)) (ht : ∀ n, matchItems is (t.drop n) = none) :
    findall is r = [g] := by
  have key : ∀ (n : ℕ) (u : List Char), (∀ k, matchItems is (u.drop k) = none) → findN n is u = [] := by
    intro n
    induction n with
    | zero => intro u _; rfl
    | succ n ih =>
      intro u hu
      have := hu 0
      rw [List.drop_zero] at this
      cases u with
      | nil => simp only [findN, this]
      | cons c u => simp only [findN, this]; exact ih u fun k => hu (k + 1)
  unfold findall
  simp only [findN, h]
  rw [key _ t ht]

/-- no match where a literal character of the pattern does not occur -/
theorem match_lit_notin (s : String) (is : List Item) (r : List Char) (c : Char) (hc : c ∈ s.toList) (hr : c ∉ r) (n : ℕ) :
    matchItems (lit s ++ is) (r.drop n) = none :=
  match_lit_iff s is _ fun hp => hr (List.mem_of_mem_drop (hp.subset hc))

/-! ## The patterns -/

theorem find_ij05 (c : Char) (x tail : List Char) (hc : c ≠ '\n') (hx : '\n' ∉ x) (hL : 'L' ∉ x) (ht : 'S' ∉ tail) :
    findall (pattern .ij05) ("Stokes".toList ++ c :: ("R2_".toList ++ x ++ "_L120".toList ++ tail)) = [[x]] := by
  have hm : matchItems (pattern .ij05) ("Stokes".toList ++ c :: ("R2_".toList ++ x ++ "_L120".toList ++ tail)) =
      some ([x], tail) := by
    simp only [pattern, List.append_assoc, List.cons_append, List.nil_append]
    rw [match_lit, matchItems, if_pos (any_of_ne [c] (by simpa using hc.symm) c (by simp)), match_lit, match_lazy _ _ _ x.length ([], tail) (takeWhile_app _ _ _ (any_of_ne x hx))]
    · simp
    · rw [List.drop_left, ← List.append_nil (lit "_L120"), match_lit]
      rfl
    · intro n hn
      rw [← List.append_nil (lit "_L120")]
      apply match_lit_iff
      rintro ⟨z, hz⟩
      have h1 : (List.drop n (x ++ ("_L120".toList ++ tail)))[1]? = some 'L' := by rw [← hz]; rfl
      rw [List.getElem?_drop] at h1
      by_cases h2 : n + 1 < x.length
      · rw [List.getElem?_append_left h2] at h1
        exact hL (List.mem_of_getElem? h1)
      · rw [List.getElem?_append_right (by omega), show n + 1 - x.length = 0 from by omega] at h1
        simp at h1
  refine findall_one _ _ _ _ hm fun n => ?_
  simp only [pattern, List.append_assoc]
  exact match_lit_notin _ _ _ 'S' (by decide) ht n

theorem find_ice6g (x : List Char) (hx : '\n' ∉ x) :
    findall (pattern .ice6g) ("Stokes_G_Rot_60_I6_A_".toList ++ x) = [[x]] := by
  have hm : matchItems (pattern .ice6g) ("Stokes_G_Rot_60_I6_A_".toList ++ x) = some ([x], []) := by
    simp only [pattern]
    rw [match_lit, match_greedy _ _ _ _ x.length ([], []) (by omega)]
    · simp
    · rw [takeWhile_all _ _ (any_of_ne x hx)]
    · simp [matchItems]
    · intro n h1 h2
      rw [takeWhile_all _ _ (any_of_ne x hx)] at h2
      omega
  refine findall_one _ _ _ _ hm fun n => ?_
  simp only [pattern]
  exact match_lit_notin _ _ _ 'S' (by decide) (by simp) n

theorem find_w12a (a c : Char) (ha : a = 'B' ∨ a = 'L' ∨ a = 'U') (hc : c ≠ '\n') :
    findall (pattern .w12a) ("grate_".toList ++ a :: c :: "clm".toList) = [[[a]]] := by
  have h0 : anyCh c = true := any_of_ne [c] (by simpa using hc.symm) c (by simp)
  have hm : matchItems (pattern .w12a) ("grate_".toList ++ a :: c :: "clm".toList) = some ([[a]], []) := by
    simp only [pattern, List.append_assoc, List.cons_append, List.nil_append]
    rw [match_lit]
    have h1 : matchItems (.ch anyCh :: lit "clm") (c :: "clm".toList) = some ([], []) := by
      rw [matchItems, if_pos h0]
      have := match_lit "clm" [] []
      rw [List.append_nil, List.append_nil] at this
      rw [this]; rfl
    rw [matchItems]
    rcases ha with rfl | rfl | rfl <;>
      simp only [List.findSome?_cons, List.isPrefixOf, beq_self_eq_true, Bool.and_true, if_true, List.length_singleton,
        List.drop_succ_cons, List.drop_zero, h1, Option.map_some, (by decide : ('B' == 'L') = false),
        (by decide : ('B' == 'U') = false), (by decide : ('L' == 'U') = false), Bool.false_eq_true, if_false]
  refine findall_one _ _ _ _ hm fun n => ?_
  simp only [pattern, List.append_assoc]
  exact match_lit_notin _ _ _ 'g' (by decide) (by simp) n

theorem digit_any (b : Char) (hb : b.isDigit = true) :
    b ∈ ['0','1','2','3','4','5','6','7','8','9'] := by
  simp only [Char.isDigit, Bool.and_eq_true, decide_eq_true_eq] at hb
  have h1 : 48 ≤ b.toNat := UInt32.le_iff_toNat_le.mp hb.1
  have h2 : b.toNat ≤ 57 := UInt32.le_iff_toNat_le.mp hb.2
  have h3 : b = Char.ofNat b.toNat := (Char.ofNat_toNat b).symm
  rw [h3]
  interval_cases b.toNat <;> decide

theorem find_sm09 (a d : List Char) (b c : Char) (ha : ∀ x ∈ a, x.isDigit = true) (ha0 : a ≠ []) (hb : b.isDigit = true)
    (hd : ∀ x ∈ d, x.isDigit = true) (hd0 : d ≠ []) (hc : c ≠ '\n') (hc' : c.isDigit = false) :
    findall (pattern .sm09) ("grate_".toList ++ a ++ 'p' :: b :: (d ++ c :: "clm".toList)) = [[a, [b], d]] := by
  have h0 : anyCh c = true := any_of_ne [c] (by simpa using hc.symm) c (by simp)
  have h1 : matchItems (.ch anyCh :: lit "clm") (c :: "clm".toList) = some ([], []) := by
    rw [matchItems, if_pos h0]
    have := match_lit "clm" [] []
    rw [List.append_nil, List.append_nil] at this
    rw [this]; rfl
  have h2 : matchItems (.run Char.isDigit true 1 :: .ch anyCh :: lit "clm") (d ++ c :: "clm".toList) = some ([d], []) := by
    rw [match_greedy _ _ _ _ d.length ([], []) (by have := List.length_pos_iff.mpr hd0; omega)]
    · simp
    · rw [takeWhile_stop _ _ _ _ hd hc']
    · rw [List.drop_left, h1]
    · intro n h3 h4
      rw [takeWhile_stop _ _ _ _ hd hc'] at h4
      omega
  have h3 : matchItems (.alts (["0","1","2","3","4","5","6","7","8","9"].map String.toList) true ::
      .run Char.isDigit true 1 :: .ch anyCh :: lit "clm") (b :: (d ++ c :: "clm".toList)) = some ([[b], d], []) := by
    rw [matchItems]
    have hb' := digit_any b hb
    have e : (["0","1","2","3","4","5","6","7","8","9"].map String.toList) =
        ['0','1','2','3','4','5','6','7','8','9'].map fun x => [x] := by decide
    rw [e]
    generalize ['0','1','2','3','4','5','6','7','8','9'] = cs at hb'
    induction cs with
    | nil => simp at hb'
    | cons x t ih =>
      rw [List.map_cons, List.findSome?_cons]
      by_cases hx : x = b
      · subst hx
        simp only [List.isPrefixOf, beq_self_eq_true, Bool.and_true, if_true, List.length_singleton, List.drop_succ_cons,
          List.drop_zero, h2, Option.map_some]
      · have h5 : ([x].isPrefixOf (b :: (d ++ c :: "clm".toList))) = false := by simp [List.isPrefixOf, hx]
        rw [h5]
        simp only [Bool.false_eq_true, if_false]
        exact ih (by simpa [Ne.symm hx] using hb')
  have hm : matchItems (pattern .sm09) ("grate_".toList ++ a ++ 'p' :: b :: (d ++ c :: "clm".toList)) =
      some ([a, [b], d], []) := by
    simp only [pattern, List.append_assoc, List.cons_append, List.nil_append]
    have hp : Char.isDigit 'p' = false := by decide
    rw [match_lit, match_greedy _ _ _ _ a.length ([[b], d], []) (by have := List.length_pos_iff.mpr ha0; omega)]
    · simp
    · rw [takeWhile_stop _ _ _ _ ha hp]
    · rw [List.drop_left]
      exact (match_lit "p" _ _).trans h3
    · intro n h3 h4
      rw [takeWhile_stop _ _ _ _ ha hp] at h4
      omega
  refine findall_one _ _ _ _ hm fun n => ?_
  simp only [pattern, List.append_assoc]
  exact match_lit_notin _ _ _ 'g' (by decide) (by simp) n

/-- a run up to an optional ending -/
theorem match_ending (x e tail : List Char) (hx : '\n' ∉ x) (he : '\n' ∉ e)
    (h : tail = e ∨ (tail = [] ∧ ¬ e <:+ x)) :
    matchItems [.run anyCh false 0, .alts [e, []] true, .eos] (x ++ tail) = some ([x, tail], []) := by
  have hcap : ∀ r : List Char, r = e ∨ r = [] → matchItems [.alts [e, []] true, .eos] r = some ([r], []) := by
    intro r hr
    simp only [matchItems, List.findSome?_cons, List.findSome?_nil]
    rcases hr with rfl | rfl
    · simp
    · cases e <;> simp
  have hno : ∀ r : List Char, '\n' ∉ r → r ≠ e → r ≠ [] → matchItems [.alts [e, []] true, .eos] r = none := by
    intro r hr h1 h2
    have h3 : r ≠ ['\n'] := by rintro rfl; simp at hr
    simp only [matchItems, List.findSome?_cons, List.findSome?_nil]
    by_cases hp : e <+: r
    · obtain ⟨z, rfl⟩ := hp
      have h4 : z ≠ [] := by rintro rfl; simp at h1
      have h5 : z ≠ ['\n'] := by rintro rfl; simp at hr
      simp [h4, h5, h3]
    · have : e.isPrefixOf r = false := by
        rw [Bool.eq_false_iff, ne_eq, List.isPrefixOf_iff_prefix]; exact hp
      simp [this, h2, h3]
  have htail : tail = e ∨ tail = [] := by tauto
  rw [match_lazy _ _ _ x.length ([tail], []) (takeWhile_app _ _ _ (any_of_ne x hx))]
  · simp
  · rw [List.drop_left]; exact hcap tail htail
  · intro n hn
    have hl : (List.drop n (x ++ tail)).length = x.length + tail.length - n := by simp
    apply hno
    · intro hm
      rcases List.mem_append.mp (List.mem_of_mem_drop hm) with h1 | h1
      · exact hx h1
      · rcases htail with rfl | rfl
        · exact he h1
        · simp at h1
    · intro h1
      rcases h with rfl | ⟨rfl, h2⟩
      · have := congrArg List.length h1
        omega
      · apply h2
        rw [List.append_nil] at h1
        exact h1 ▸ List.drop_suffix n x
    · intro h1
      rw [h1] at hl
      simp at hl
      omega

theorem match_alt1 (s : String) (is : List Item) (r : List Char) :
    matchItems (.alts [s.toList] true :: is) (s.toList ++ r) = (matchItems is r).map fun q => (s.toList :: q.1, q.2) := by
  rw [matchItems, List.findSome?_cons, List.findSome?_nil]
  have : s.toList.isPrefixOf (s.toList ++ r) = true := by rw [List.isPrefixOf_iff_prefix]; exact List.prefix_append _ _
  rw [this, List.drop_left]
  simp only [if_true]
  cases matchItems is r <;> rfl

theorem find_aw13ice6g (c : Char) (x tail : List Char) (hc : c = '.' ∨ c = '_') (hx : '\n' ∉ x)
    (ht : tail = ".txt".toList ∨ (tail = [] ∧ ¬ ".txt".toList <:+ x)) :
    findall (pattern .aw13ice6g) ("stokes.ice6g".toList ++ c :: (x ++ tail)) = [["ice6g".toList, x, tail]] := by
  have hm : matchItems (pattern .aw13ice6g) ("stokes.ice6g".toList ++ c :: (x ++ tail)) =
      some (["ice6g".toList, x, tail], []) := by
    simp only [pattern, List.append_assoc, List.cons_append, List.nil_append]
    rw [show "stokes.ice6g".toList = "stokes.".toList ++ "ice6g".toList from by decide, List.append_assoc, match_lit,
      match_alt1, matchItems, if_pos (by rcases hc with rfl | rfl <;> decide),
      match_ending x _ tail hx (by decide) ht]
    rfl
  refine findall_one _ _ _ _ hm fun n => ?_
  simp only [pattern, List.append_assoc]
  exact match_lit_notin _ _ _ 's' (by decide) (by simp) n

theorem find_aw13ij05 (x tail : List Char) (hx : '\n' ∉ x)
    (ht : tail = "_ANT".toList ∨ (tail = [] ∧ ¬ "_ANT".toList <:+ x)) :
    findall (pattern .aw13ij05) ("stokes.R2_".toList ++ (x ++ tail)) = [["R2".toList, x, tail]] := by
  have hm : matchItems (pattern .aw13ij05) ("stokes.R2_".toList ++ (x ++ tail)) =
      some (["R2".toList, x, tail], []) := by
    simp only [pattern, List.append_assoc, List.cons_append, List.nil_append]
    rw [show "stokes.R2_".toList = "stokes.".toList ++ ("R2".toList ++ "_".toList) from by decide, List.append_assoc,
      match_lit, List.append_assoc, match_alt1, match_lit,
      match_ending x _ tail hx (by decide) ht]
    rfl
  refine findall_one _ _ _ _ hm fun n => ?_
  simp only [pattern, List.append_assoc]
  exact match_lit_notin _ _ _ 's' (by decide) (by simp) n

/-- ending of an ICE-6G_D name -/
theorem match_txt (y : List Char) (hy : '\n' ∉ y) :
    matchItems (.run anyCh false 0 :: (lit ".txt" ++ [.eos])) (y ++ ".txt".toList) = some ([y], []) := by
  rw [match_lazy _ _ _ y.length ([], []) (takeWhile_app _ _ _ (any_of_ne y hy))]
  · simp
  · rw [List.drop_left]
    have := match_lit ".txt" [.eos] []
    rw [List.append_nil] at this
    rw [this]; simp [matchItems]
  · intro n hn
    by_cases hp : ".txt".toList <+: List.drop n (y ++ ".txt".toList)
    · obtain ⟨z, hz⟩ := hp
      rw [← hz, match_lit]
      have h1 : z.length + 4 = y.length + 4 - n := by
        have := congrArg List.length hz
        simp at this
        omega
      have h2 : z ≠ [] := by rintro rfl; simp at h1; omega
      have h3 : z ≠ ['\n'] := by
        rintro rfl
        have h4 : '\n' ∈ y ++ ".txt".toList := by
          have h6 : '\n' ∈ List.drop n (y ++ ".txt".toList) := by rw [← hz]; simp
          exact List.mem_of_mem_drop h6
        rcases List.mem_append.mp h4 with h5 | h5
        · exact hy h5
        · revert h5; decide
      simp [matchItems, h2, h3]
    · exact match_lit_iff _ _ _ hp

theorem match_rest (y : List Char) (sep : Bool) (hy : '\n' ∉ y) (hsep : sep = false → y = []) :
    matchItems (lit "Stokes_trend" ++ ([.alts [['_'], []] false, .run anyCh false 0] ++ (lit ".txt" ++ [.eos])))
      ("Stokes_trend".toList ++ ((if sep then ['_'] else []) ++ (y ++ ".txt".toList))) = some ([y], []) := by
  rw [match_lit, List.cons_append, List.cons_append, List.nil_append, matchItems]
  cases sep with
  | true =>
    simp only [List.findSome?_cons, if_true, List.cons_append, List.nil_append, List.isPrefixOf, beq_self_eq_true,
      Bool.and_true, List.length_singleton, List.drop_succ_cons, List.drop_zero, match_txt y hy, Option.map_some]
    simp
  | false =>
    have := hsep rfl
    subst this
    have h1 := match_txt [] (by simp)
    rw [List.nil_append] at h1
    simp only [List.findSome?_cons, Bool.false_eq_true, if_false, List.nil_append]
    rw [show ((['_'] : List Char).isPrefixOf ".txt".toList) = false from by decide]
    simp only [Bool.false_eq_true, if_false]
    rw [show (([] : List Char).isPrefixOf ".txt".toList) = true from by decide]
    simp only [if_true, List.length_nil, List.drop_zero, h1, Option.map_some]

/-- the middle part with a separator before it -/
theorem match_middle (x y : List Char) (sep : Bool) (hx : '\n' ∉ x) (hS : 'S' ∉ x) (hy : '\n' ∉ y)
    (hsep : sep = false → y = []) :
    matchItems (.run anyCh false 0 :: .alts [['_'], []] false :: (lit "Stokes_trend" ++
      ([.alts [['_'], []] false, .run anyCh false 0] ++ (lit ".txt" ++ [.eos]))))
      (x ++ ('_' :: ("Stokes_trend".toList ++ ((if sep then ['_'] else []) ++ (y ++ ".txt".toList))))) =
      some ([x, y], []) := by
  have hr := match_rest y sep hy hsep
  generalize hT : (if sep then ['_'] else []) ++ (y ++ ".txt".toList) = T at hr ⊢
  rw [match_lazy _ _ _ x.length ([y], []) (takeWhile_app _ _ _ (any_of_ne x hx))]
  · simp
  · rw [List.drop_left, matchItems, List.findSome?_cons]
    simp only [List.isPrefixOf, beq_self_eq_true, Bool.and_true, if_true, List.length_singleton,
      List.drop_succ_cons, List.drop_zero, hr, Option.map_some]
    simp
  · intro n hn
    have hne : ∀ k, k ≤ x.length → matchItems (lit "Stokes_trend" ++
      ([.alts [['_'], []] false, .run anyCh false 0] ++ (lit ".txt" ++ [.eos])))
        (List.drop k (x ++ '_' :: ("Stokes_trend".toList ++ T))) = none := by
      intro k hk
      apply match_lit_iff
      rintro ⟨z, hz⟩
      have h1 : (List.drop k (x ++ '_' :: ("Stokes_trend".toList ++ T)))[0]? = some 'S' := by rw [← hz]; rfl
      rw [List.getElem?_drop] at h1
      by_cases h2 : k + 0 < x.length
      · rw [List.getElem?_append_left h2] at h1
        exact hS (List.mem_of_getElem? h1)
      · rw [List.getElem?_append_right (by omega), show k + 0 - x.length = 0 from by omega] at h1
        simp at h1
    rw [matchItems, List.findSome?_cons, List.findSome?_cons, List.findSome?_nil]
    simp only [List.length_singleton, List.drop_drop, List.length_nil, hne (n + 1) (by omega), hne (n + 0) (by omega),
      Option.map_none, ite_self]

theorem find_ice6gD (ice sep : Bool) (x y : List Char) (hx : '\n' ∉ x) (hS : 'S' ∉ x)
    (hice : ice = false → ¬ "ICE-6G_".toList <+: x ++ '_' :: "Stokes_trend".toList) (hy : '\n' ∉ y)
    (hsep : sep = false → y = []) :
    ∃ g, findall (pattern .ice6gD) ((if ice then "ICE-6G_".toList else []) ++ (x ++ ('_' :: ("Stokes_trend".toList ++
      ((if sep then ['_'] else []) ++ (y ++ ".txt".toList)))))) = [[g, x, y]] := by
  have hm2 := match_middle x y sep hx hS hy hsep
  refine ⟨if ice then "ICE-6G_".toList else [], ?_⟩
  have hm : matchItems (pattern .ice6gD) ((if ice then "ICE-6G_".toList else []) ++ (x ++ ('_' :: ("Stokes_trend".toList ++
      ((if sep then ['_'] else []) ++ (y ++ ".txt".toList)))))) =
      some ([if ice then "ICE-6G_".toList else [], x, y], []) := by
    simp only [pattern, List.append_assoc, List.cons_append, List.nil_append] at hm2 ⊢
    rw [matchItems, List.findSome?_cons, List.findSome?_cons]
    cases ice with
    | true =>
      simp only [if_true]
      rw [List.isPrefixOf_iff_prefix.mpr (List.prefix_append _ _), List.drop_left, hm2]
      rfl
    | false =>
      simp only [Bool.false_eq_true, if_false, List.nil_append]
      have h1 : "ICE-6G_".toList.isPrefixOf (x ++ '_' :: ("Stokes_trend".toList ++
          ((if sep then ['_'] else []) ++ (y ++ ".txt".toList)))) = false := by
        rw [Bool.eq_false_iff, ne_eq, List.isPrefixOf_iff_prefix]
        intro hp
        refine hice rfl (List.prefix_of_prefix_length_le hp ?_ ?_)
        · exact ⟨(if sep then ['_'] else []) ++ (y ++ ".txt".toList), by simp⟩
        · simp
      rw [h1]
      simp only [Bool.false_eq_true, if_false]
      rw [List.isPrefixOf_iff_prefix.mpr List.nil_prefix]
      simp only [if_true, List.length_nil, List.drop_zero, hm2, Option.map_some]
  refine findall_one _ _ _ _ hm fun n => ?_
  simp only [List.drop_nil]
  decide +kernel

/-- names beginning with the middle part -/
theorem find_ice6gD' (y : List Char) (sep : Bool) (hy : '\n' ∉ y) (hsep : sep = false → y = []) :
    findall (pattern .ice6gD) ("Stokes_trend".toList ++ ((if sep then ['_'] else []) ++ (y ++ ".txt".toList))) =
      [[[], [], y]] := by
  have hr := match_rest y sep hy hsep
  have hm : matchItems (pattern .ice6gD) ("Stokes_trend".toList ++ ((if sep then ['_'] else []) ++ (y ++ ".txt".toList))) =
      some ([[], [], y], []) := by
    generalize hT : (if sep then ['_'] else []) ++ (y ++ ".txt".toList) = T at hr ⊢
    simp only [pattern, List.append_assoc, List.cons_append, List.nil_append] at hr ⊢
    rw [matchItems, List.findSome?_cons, List.findSome?_cons]
    have h1 : "ICE-6G_".toList.isPrefixOf ("Stokes_trend".toList ++ T) = false := by
      rw [Bool.eq_false_iff, ne_eq, List.isPrefixOf_iff_prefix]
      rintro ⟨z, hz⟩
      have : ("Stokes_trend".toList ++ T)[0]? = some 'I' := by rw [← hz]; rfl
      simp at this
    rw [h1]
    simp only [Bool.false_eq_true, if_false]
    rw [List.isPrefixOf_iff_prefix.mpr List.nil_prefix]
    simp only [if_true, List.length_nil, List.drop_zero]
    rw [match_lazy _ _ _ 0 ([y], []) (by omega)]
    · simp
    · rw [List.drop_zero, matchItems, List.findSome?_cons, List.findSome?_cons]
      have h2 : ['_'].isPrefixOf ("Stokes_trend".toList ++ T) = false := by
        rw [Bool.eq_false_iff, ne_eq, List.isPrefixOf_iff_prefix]
        rintro ⟨z, hz⟩
        have : ("Stokes_trend".toList ++ T)[0]? = some '_' := by rw [← hz]; rfl
        simp at this
      rw [h2]
      simp only [Bool.false_eq_true, if_false]
      rw [List.isPrefixOf_iff_prefix.mpr List.nil_prefix]
      simp only [if_true, List.length_nil, List.drop_zero, hr, Option.map_some]
    · intro n hn; omega
  refine findall_one _ _ _ _ hm fun n => ?_
  simp only [List.drop_nil]
  decide +kernel

end Verif.GIA
