import Verif.Utilities.Model
import Mathlib.Tactic.Linarith

/-!
# Splitting and joining urls; rounding; argument lines (C45, C47, C69)
-/
namespace Verif.Utilities

/-- a path component: no slash -/
abbrev NoSlash (w : Str) : Prop := '/' ∉ w

/-- components joined by single slashes -/
def pathOf (a : Str) (rest : List Str) : Str := rest.foldl (fun p w => p ++ '/' :: w) a

/-! ## posixpath.split -/

theorem takeWhile_rev (w : Str) (hw : NoSlash w) (t : Str) (ht : t = [] ∨ t.head? = some '/') :
    (w.reverse ++ t).takeWhile (· ≠ '/') = w.reverse ∧ (w.reverse ++ t).dropWhile (· ≠ '/') = t := by
  have h1 : ∀ c ∈ w.reverse, (decide (c ≠ '/')) = true := by
    intro c hc
    rw [List.mem_reverse] at hc
    simp only [decide_eq_true_eq]
    intro h; exact hw (h ▸ hc)
  rw [List.takeWhile_append_of_pos h1, List.dropWhile_append_of_pos h1]
  rcases ht with rfl | ht
  · simp
  · cases t with
    | nil => simp at ht
    | cons c u =>
      simp only [List.head?_cons, Option.some.injEq] at ht
      subst ht; simp

/-- every string is a part that is empty or ends in a slash, and a slash-free part -/
theorem split_shape (s : Str) : ∃ H w, s = H ++ w ∧ NoSlash w ∧ (H = [] ∨ H.getLast? = some '/') := by
  refine ⟨(s.reverse.dropWhile (· ≠ '/')).reverse, (s.reverse.takeWhile (· ≠ '/')).reverse, ?_, ?_, ?_⟩
  · rw [← List.reverse_append, List.takeWhile_append_dropWhile, List.reverse_reverse]
  · unfold NoSlash
    rw [List.mem_reverse]
    intro h
    have := (List.all_eq_true.1 (List.all_takeWhile (l := s.reverse) (p := fun c => decide (c ≠ '/')))) _ h
    simp at this
  · rw [List.getLast?_reverse]
    cases h : s.reverse.dropWhile (· ≠ '/') with
    | nil => left; rfl
    | cons c t =>
      right
      have := List.head?_dropWhile_not (fun c => decide (c ≠ '/')) s.reverse
      rw [h] at this
      simpa using this

theorem psplit_eq (H w : Str) (hw : NoSlash w) (hH : H = [] ∨ H.getLast? = some '/') :
    psplit (H ++ w) = (if H.all (· = '/') then H else rstripSlash H, w) := by
  have ht : H.reverse = [] ∨ H.reverse.head? = some '/' := by
    rcases hH with rfl | h
    · left; rfl
    · right; rwa [List.head?_reverse]
  obtain ⟨h1, h2⟩ := takeWhile_rev w hw H.reverse ht
  unfold psplit
  rw [List.reverse_append, h1, h2, List.reverse_reverse, List.reverse_reverse]

theorem rstrip_append (p : Str) (n : ℕ) (hp : p.getLast? ≠ some '/') :
    rstripSlash (p ++ List.replicate n '/') = p := by
  unfold rstripSlash
  rw [List.reverse_append, List.reverse_replicate, List.dropWhile_append_of_pos (by
    intro c hc; rw [List.mem_replicate] at hc; simp [hc.2])]
  cases h : p.reverse with
  | nil => rw [List.reverse_eq_nil_iff] at h; subst h; rfl
  | cons c t =>
    have hc : c ≠ '/' := by
      intro hc
      apply hp
      rw [← List.head?_reverse, h, hc]; rfl
    rw [List.dropWhile_cons_of_neg (by simpa using hc), ← h, List.reverse_reverse]

/-- a name below a directory -/
theorem psplit_slashes (p w : Str) (n : ℕ) (hp0 : p ≠ []) (hp : p.getLast? ≠ some '/') (hw : NoSlash w) :
    psplit (p ++ List.replicate (n + 1) '/' ++ w) = (p, w) := by
  rw [psplit_eq _ w hw (Or.inr (by rw [List.replicate_succ']; simp))]
  have : (p ++ List.replicate (n + 1) '/').all (· = '/') = false := by
    rw [Bool.eq_false_iff]
    intro h
    rw [List.all_eq_true] at h
    obtain ⟨c, hc⟩ : ∃ c, p.getLast? = some c := by
      cases hg : p.getLast? with
      | none => exact absurd (List.getLast?_eq_none_iff.1 hg) hp0
      | some c => exact ⟨c, rfl⟩
    have hm : c ∈ p := List.mem_of_getLast? hc
    have := h c (by simp [hm])
    simp only [decide_eq_true_eq] at this
    exact hp (this ▸ hc)
  rw [this, rstrip_append p _ hp]
  rfl

theorem psplit_all (w : Str) (n : ℕ) (hw : NoSlash w) : psplit (List.replicate n '/' ++ w) = (List.replicate n '/', w) := by
  rw [psplit_eq _ w hw (by cases n with | zero => left; rfl | succ n => right; rw [List.replicate_succ']; simp)]
  have : (List.replicate n '/').all (· = '/') = true := by
    rw [List.all_eq_true]; intro c hc; rw [List.mem_replicate] at hc; simp [hc.2]
  rw [this]; rfl

/-- the three shapes of a string, as `psplit` sees them -/
theorem psplit_cases (s : Str) :
    (∃ n w, s = List.replicate n '/' ++ w ∧ NoSlash w ∧ psplit s = (List.replicate n '/', w)) ∨
    (∃ p n w, s = p ++ List.replicate (n + 1) '/' ++ w ∧ p ≠ [] ∧ p.getLast? ≠ some '/' ∧ NoSlash w ∧
      psplit s = (p, w)) := by
  obtain ⟨H, w, rfl, hw, hH⟩ := split_shape s
  -- strip the slashes at the end of H
  have key : ∀ n (H : Str), H.length = n → ∃ p k, H = p ++ List.replicate k '/' ∧ p.getLast? ≠ some '/' := by
    intro n
    induction n with
    | zero =>
      intro H h
      exact ⟨[], 0, by simpa using List.length_eq_zero_iff.1 h, by simp⟩
    | succ n ih =>
      intro H h
      by_cases hl : H.getLast? = some '/'
      · have hne : H ≠ [] := by intro h0; subst h0; simp at h
        obtain ⟨p, k, hp, hpl⟩ := ih H.dropLast (by simp [h])
        refine ⟨p, k + 1, ?_, hpl⟩
        have hg : H.getLast hne = '/' := by
          rw [List.getLast?_eq_getLast_of_ne_nil hne, Option.some.injEq] at hl; exact hl
        rw [List.replicate_succ', ← List.append_assoc, ← hp, ← hg, List.dropLast_append_getLast]
      · exact ⟨H, 0, by simp, hl⟩
  obtain ⟨p, k, rfl, hp⟩ := key _ H rfl
  by_cases hp0 : p = []
  · left
    subst hp0
    exact ⟨k, w, by simp, hw, by simpa using psplit_all w k hw⟩
  · right
    cases k with
    | zero =>
      exfalso
      rcases hH with h | h
      · simp at h; exact hp0 h
      · simp at h; exact hp h
    | succ k => exact ⟨p, k, w, rfl, hp0, hp, hw, psplit_slashes p w k hp0 hp hw⟩

/-- the recursion of `url_split` either shortens its argument or repeats it unchanged -/
theorem psplit_same (s : Str) (h : ¬(psplit s).1.length < s.length) : (psplit s).1 = s := by
  rcases psplit_cases s with ⟨n, w, rfl, _, he⟩ | ⟨p, n, w, rfl, _, _, _, he⟩
  · rw [he] at h ⊢
    simp only [List.length_append, List.length_replicate] at h
    have : w = [] := List.length_eq_zero_iff.1 (by omega)
    subst this; simp
  · rw [he] at h
    simp only [List.length_append, List.length_replicate] at h
    omega

/-! ## url_split -/

theorem noSlash_scheme (s : Str) (h : s ∈ schemes) : NoSlash s ∧ s ≠ [] := by
  simp only [schemes, List.mem_cons, List.not_mem_nil, or_false] at h
  unfold NoSlash
  rcases h with rfl | rfl | rfl | rfl <;> decide

/-- **C45** `url_split` returns exactly when the string does not begin with two slashes; otherwise it calls
itself with the same argument for ever -/
theorem urlSplit_none_iff (s : Str) : urlSplit s = none ↔ ['/', '/'] <+: s := by
  induction hn : s.length using Nat.strong_induction_on generalizing s with
  | _ n ih =>
    subst hn
    unfold urlSplit
    rcases psplit_cases s with ⟨n, w, hs, hw, he⟩ | ⟨p, n, w, hs, hp0, hpl, hw, he⟩
    · rw [he]
      dsimp only
      have h2 : (['/', '/'] <+: s) ↔ 2 ≤ n := by
        constructor
        · intro h
          by_contra hcon
          rw [hs] at h
          have hcase : n = 0 ∨ n = 1 := by omega
          rcases hcase with rfl | rfl
          · simp only [List.replicate_zero, List.nil_append] at h
            exact hw (h.subset (by simp))
          · simp only [List.replicate_one, List.singleton_append, List.cons_prefix_cons, true_and] at h
            exact hw (h.subset (by simp))
        · intro h
          obtain ⟨m, rfl⟩ : ∃ m, n = m + 2 := ⟨n - 2, by omega⟩
          rw [hs, List.replicate_succ, List.replicate_succ]
          simp
      rw [h2]
      rw [if_neg (by
        intro h
        obtain ⟨h1, h3⟩ := noSlash_scheme _ h
        cases n with
        | zero => exact h3 rfl
        | succ n => exact h1 (by simp [List.replicate_succ]))]
      by_cases hsmall : n ≤ 1
      · rw [if_pos (by
          have : n = 0 ∨ n = 1 := by omega
          rcases this with rfl | rfl <;> simp)]
        simp only [reduceCtorEq, false_iff]; omega
      · rw [if_neg (by
          rintro (h | h)
          · have := congrArg List.length h; simp at this; omega
          · have := congrArg List.length h; simp at this; omega)]
        by_cases hlt : (List.replicate n '/').length < s.length
        · rw [dif_pos hlt, Option.map_eq_none_iff, ih _ hlt _ rfl]
          constructor
          · intro _; omega
          · intro _
            obtain ⟨m, rfl⟩ : ∃ m, n = m + 2 := ⟨n - 2, by omega⟩
            rw [List.replicate_succ, List.replicate_succ]; simp
        · rw [dif_neg hlt]; simp only [true_iff]; omega
    · rw [he]
      dsimp only
      have hlt : p.length < s.length := by rw [hs]; simp
      have hpre : (['/', '/'] <+: s) ↔ (['/', '/'] <+: p) := by
        constructor
        · intro h
          cases p with
          | nil => exact absurd rfl hp0
          | cons c t =>
            rw [hs, List.cons_append, List.cons_append, List.cons_prefix_cons] at h
            rw [List.cons_prefix_cons]
            refine ⟨h.1, ?_⟩
            cases t with
            | nil => exfalso; apply hpl; simp [← h.1]
            | cons d u =>
              have := h.2
              rw [List.cons_append, List.cons_append, List.cons_prefix_cons] at this
              rw [List.cons_prefix_cons]
              exact ⟨this.1, List.nil_prefix⟩
        · intro h
          rw [hs, List.append_assoc]
          exact h.trans (List.prefix_append _ _)
      rw [hpre]
      by_cases hsch : p ∈ schemes
      · rw [if_pos hsch]
        simp only [reduceCtorEq, false_iff]
        intro h
        exact (noSlash_scheme p hsch).1 (h.subset (by simp))
      · rw [if_neg hsch, if_neg (by
          rintro (h | h)
          · exact hp0 h
          · rw [h] at hpl; exact hpl rfl), dif_pos hlt, Option.map_eq_none_iff]
        exact ih _ hlt _ rfl

example : urlSplit "//server/share".toList = none ∧ ['/', '/'] <+: "//server/share".toList := by
  rw [urlSplit_none_iff]; exact ⟨by decide, by decide⟩

/-- one more component below a path that is not itself a scheme -/
theorem urlSplit_snoc (p w : Str) (L : List Str) (hL : urlSplit p = some L) (hp0 : p ≠ []) (hp : p.getLast? ≠ some '/')
    (hs : p ∉ schemes) (hw : NoSlash w) : urlSplit (p ++ '/' :: w) = some (L ++ [w]) := by
  have he : psplit (p ++ '/' :: w) = (p, w) := by
    have := psplit_slashes p w 0 hp0 hp hw
    simpa using this
  have hps : p ≠ ['/'] := by intro h; rw [h] at hp; exact hp rfl
  rw [urlSplit, he]
  dsimp only
  rw [if_neg hs, if_neg (by rintro (h | h); exacts [hp0 h, hps h]), dif_pos (by simp), hL]
  rfl

theorem urlSplit_pathOf (a : Str) (rest L : List Str) (hL : urlSplit a = some L) (ha0 : a ≠ [])
    (ha : a.getLast? ≠ some '/') (hs : a ∉ schemes) (hr : ∀ w ∈ rest, NoSlash w ∧ w ≠ []) :
    urlSplit (pathOf a rest) = some (L ++ rest) := by
  induction rest generalizing a L with
  | nil => simpa [pathOf] using hL
  | cons w t ih =>
    obtain ⟨hw, hw0⟩ := hr w (by simp)
    have h1 := urlSplit_snoc a w L hL ha0 ha hs hw
    have h2 := ih (a ++ '/' :: w) (L ++ [w]) h1 (by simp) (by
      intro h
      rw [List.getLast?_append, List.getLast?_cons] at h
      cases hg : w.getLast? with
      | none => exact hw0 (List.getLast?_eq_none_iff.1 hg)
      | some c =>
        rw [hg] at h
        simp at h
        exact hw (h ▸ List.mem_of_getLast? hg)) (by
      intro h; exact (noSlash_scheme _ h).1 (by simp)) fun x hx => hr x (by simp [hx])
    simpa [pathOf] using h2

theorem urlSplit_noSlash (a : Str) (ha : NoSlash a) : urlSplit a = some [a] := by
  have he := psplit_all a 0 ha
  simp only [List.replicate_zero, List.nil_append] at he
  rw [urlSplit, he]
  dsimp only
  rw [if_neg (by decide), if_pos (Or.inl rfl)]

/-- **C45** a relative path splits into its components -/
theorem urlSplit_relative (a : Str) (rest : List Str) (ha : NoSlash a) (ha0 : a ≠ []) (hs : a ∉ schemes)
    (hr : ∀ w ∈ rest, NoSlash w ∧ w ≠ []) : urlSplit (pathOf a rest) = some (a :: rest) := by
  have := urlSplit_pathOf a rest [a] (urlSplit_noSlash a ha) ha0
    (fun h => ha (List.mem_of_getLast? h)) hs hr
  simpa using this

/-- **C45** the leading slash of an absolute path is lost -/
theorem urlSplit_absolute (a : Str) (rest : List Str) (ha : NoSlash a) (ha0 : a ≠ [])
    (hr : ∀ w ∈ rest, NoSlash w ∧ w ≠ []) : urlSplit (pathOf ('/' :: a) rest) = some (a :: rest) := by
  have he := psplit_all a 1 ha
  simp only [List.replicate_one, List.singleton_append] at he
  have hb : urlSplit ('/' :: a) = some [a] := by
    rw [urlSplit, he]
    dsimp only
    rw [if_neg (by decide), if_pos (Or.inr rfl)]
  have := urlSplit_pathOf ('/' :: a) rest [a] hb (by simp) (by
    rw [List.getLast?_cons]
    cases hg : a.getLast? with
    | none => exact absurd (List.getLast?_eq_none_iff.1 hg) ha0
    | some c => simp; intro h; exact ha (h ▸ List.mem_of_getLast? hg))
    (fun h => (noSlash_scheme _ h).1 (by simp)) hr
  simpa using this

/-- **C45** a url keeps scheme and host together as its first part, and the other parts are its
components -/
theorem urlSplit_url (sch host : Str) (rest : List Str) (hsch : sch ∈ schemes) (hh : NoSlash host) (hh0 : host ≠ [])
    (hr : ∀ w ∈ rest, NoSlash w ∧ w ≠ []) :
    urlSplit (pathOf (sch ++ '/' :: '/' :: host) rest) = some ((sch ++ '/' :: '/' :: host) :: rest) := by
  obtain ⟨hns, hne⟩ := noSlash_scheme sch hsch
  have he : psplit (sch ++ '/' :: '/' :: host) = (sch, host) := by
    have := psplit_slashes sch host 1 hne (fun h => hns (List.mem_of_getLast? h)) hh
    simpa [List.replicate_succ] using this
  have hb : urlSplit (sch ++ '/' :: '/' :: host) = some [sch ++ '/' :: '/' :: host] := by
    rw [urlSplit, he]
    dsimp only
    rw [if_pos hsch]
  have := urlSplit_pathOf (sch ++ '/' :: '/' :: host) rest _ hb (by simp) (by
    intro h
    rw [List.getLast?_append, List.getLast?_cons, List.getLast?_cons] at h
    cases hg : host.getLast? with
    | none => exact hh0 (List.getLast?_eq_none_iff.1 hg)
    | some c =>
      rw [hg] at h
      simp at h
      exact hh (h ▸ List.mem_of_getLast? hg))
    (fun h => (noSlash_scheme _ h).1 (by simp)) hr
  simpa using this

example : urlSplit "https://podaac.jpl.nasa.gov/a/b.gz".toList =
    some ["https://podaac.jpl.nasa.gov".toList, "a".toList, "b.gz".toList] :=
  urlSplit_url "https:".toList "podaac.jpl.nasa.gov".toList ["a".toList, "b.gz".toList] (by decide) (by decide)
    (by decide) (by decide)

/-! ## joining -/

theorem join_pathOf (a : Str) (rest : List Str) (ha0 : a ≠ []) (ha : a.getLast? ≠ some '/')
    (hr : ∀ w ∈ rest, NoSlash w ∧ w ≠ []) : join (a :: rest) = some (pathOf a rest) := by
  show some (rest.foldl joinStep a) = some (rest.foldl (fun p w => p ++ '/' :: w) a)
  congr 1
  induction rest generalizing a with
  | nil => rfl
  | cons w t ih =>
    obtain ⟨hw, hw0⟩ := hr w (by simp)
    have hstep : joinStep a w = a ++ '/' :: w := by
      unfold joinStep
      rw [if_neg, if_neg]
      · rintro (h | h); exacts [ha0 h, ha h]
      · cases w with
        | nil => simp
        | cons c u => simp; intro h; exact hw (by simp [h])
    rw [List.foldl_cons, List.foldl_cons, hstep]
    apply ih
    · simp
    · intro h
      rw [List.getLast?_append, List.getLast?_cons] at h
      cases hg : w.getLast? with
      | none => exact hw0 (List.getLast?_eq_none_iff.1 hg)
      | some c =>
        rw [hg] at h
        simp at h
        exact hw (h ▸ List.mem_of_getLast? hg)
    · exact fun x hx => hr x (by simp [hx])

/-- **C45** splitting a url and joining its parts gives the url back (so the requests built by
`posixpath.join(*HOST)` are the ones asked for), and likewise a relative path -/
theorem join_urlSplit (sch host : Str) (rest : List Str) (hsch : sch ∈ schemes) (hh : NoSlash host) (hh0 : host ≠ [])
    (hr : ∀ w ∈ rest, NoSlash w ∧ w ≠ []) :
    (urlSplit (pathOf (sch ++ '/' :: '/' :: host) rest)).bind join = some (pathOf (sch ++ '/' :: '/' :: host) rest) := by
  rw [urlSplit_url sch host rest hsch hh hh0 hr, Option.bind_some]
  apply join_pathOf _ _ (by simp) _ hr
  intro h
  rw [List.getLast?_append, List.getLast?_cons, List.getLast?_cons] at h
  cases hg : host.getLast? with
  | none => exact hh0 (List.getLast?_eq_none_iff.1 hg)
  | some c =>
    rw [hg] at h
    simp at h
    exact hh (h ▸ List.mem_of_getLast? hg)

theorem join_urlSplit_relative (a : Str) (rest : List Str) (ha : NoSlash a) (ha0 : a ≠ []) (hs : a ∉ schemes)
    (hr : ∀ w ∈ rest, NoSlash w ∧ w ≠ []) :
    (urlSplit (pathOf a rest)).bind join = some (pathOf a rest) := by
  rw [urlSplit_relative a rest ha ha0 hs hr, Option.bind_some]
  exact join_pathOf a rest ha0 (fun h => ha (List.mem_of_getLast? h)) hr

/-! ## s3 -/

theorem subN_noSlash (w : Str) (hw : NoSlash w) (n : ℕ) : subN "s3://".toList n w = w := by
  induction w with
  | nil => cases n <;> simp [subN]
  | cons c t ih =>
    have ht : NoSlash t := fun h => hw (by simp [h])
    cases n with
    | zero => simp [subN]
    | succ n =>
      rw [subN, if_neg, ih ht]
      rintro ⟨h, _⟩
      rw [List.isPrefixOf_iff_prefix] at h
      exact hw (h.subset (by decide))

/-- **C45** bucket and key of an s3 url: the host and the remaining path -/
theorem s3_bucket_key (bucket k : Str) (rest : List Str) (hb : NoSlash bucket) (hb0 : bucket ≠ [])
    (hk : NoSlash k) (hk0 : k ≠ []) (hr : ∀ w ∈ rest, NoSlash w ∧ w ≠ []) :
    s3Bucket (pathOf ("s3://".toList ++ bucket) (k :: rest)) = some bucket ∧
    s3Key (pathOf ("s3://".toList ++ bucket) (k :: rest)) = some (pathOf k rest) := by
  have hall : ∀ w ∈ k :: rest, NoSlash w ∧ w ≠ [] := by
    intro w hw
    rcases List.mem_cons.1 hw with rfl | hw
    · exact ⟨hk, hk0⟩
    · exact hr w hw
  have he : urlSplit (pathOf ("s3://".toList ++ bucket) (k :: rest)) =
      some (("s3://".toList ++ bucket) :: k :: rest) :=
    urlSplit_url "s3:".toList bucket (k :: rest) (by decide) hb hb0 hall
  constructor
  · unfold s3Bucket
    rw [he]
    simp only [Option.bind_some, List.head?_cons, Option.map_some]
    congr 1
    show subN "s3://".toList 2 ('s' :: '3' :: ':' :: '/' :: '/' :: bucket) = bucket
    rw [subN, if_pos ⟨by rw [List.isPrefixOf_iff_prefix]; exact ⟨bucket, rfl⟩, by decide⟩]
    exact subN_noSlash bucket hb 1
  · unfold s3Key
    rw [he]
    simp only [Option.bind_some, List.tail_cons]
    exact join_pathOf k rest hk0 (fun h => hk (List.mem_of_getLast? h)) hr

/-- **C45** a bucket without key raises in `s3_key` -/
theorem s3_key_missing (bucket : Str) (hb : NoSlash bucket) (hb0 : bucket ≠ []) :
    s3Key ("s3://".toList ++ bucket) = none := by
  have he : urlSplit (pathOf ("s3://".toList ++ bucket) []) = some [("s3://".toList ++ bucket)] :=
    urlSplit_url "s3:".toList bucket [] (by decide) hb hb0 (by simp)
  unfold s3Key
  rw [show urlSplit ("s3://".toList ++ bucket) = _ from he]
  rfl

/-- **C45** (a defect) the flag meant to ignore case is taken as a number of replacements and the scheme test
is case sensitive: of an upper-case url the "bucket" is the scheme -/
theorem s3_uppercase (bucket : Str) (hb : NoSlash bucket) :
    s3Bucket ("S3://".toList ++ bucket) = some "S3:".toList := by
  have he : psplit ("S3://".toList ++ bucket) = ("S3:".toList, bucket) := by
    have := psplit_slashes "S3:".toList bucket 1 (by decide) (by decide) hb
    simpa [List.replicate_succ] using this
  have h1 : urlSplit ("S3://".toList ++ bucket) = some ["S3:".toList, bucket] := by
    rw [urlSplit, he]
    dsimp only
    rw [if_neg (by decide), if_neg (by decide), dif_pos (by simp), urlSplit_noSlash _ (by decide)]
    rfl
  unfold s3Bucket
  rw [h1]
  simp only [Option.bind_some, List.head?_cons, Option.map_some]
  congr 1
  exact subN_noSlash _ (by decide) 2

/-! ## numbers -/

section
variable {K : Type} [Field K] [LinearOrder K] [IsStrictOrderedRing K] [FloorRing K]

/-- **C47** `even(v)` is the largest even integer not above `v` -/
theorem even_spec (v : K) : (even v) % 2 = 0 ∧ ((even v : ℤ) : K) ≤ v ∧
    ∀ n : ℤ, n % 2 = 0 → (n : K) ≤ v → n ≤ even v := by
  have h1 := Int.floor_le (v / 2)
  refine ⟨by unfold even; omega, ?_, ?_⟩
  · unfold even; push_cast; linarith
  · intro n hn hle
    obtain ⟨k, rfl⟩ : ∃ k, n = 2 * k := ⟨n / 2, by omega⟩
    unfold even
    have : k ≤ ⌊v / 2⌋ := by
      rw [Int.le_floor]; push_cast at hle; linarith
    omega

/-- **C47** `ceil(v)` is the smallest integer not below `v` -/
theorem ceil_spec (v : K) : v ≤ ((ceil v : ℤ) : K) ∧ ∀ n : ℤ, v ≤ (n : K) → ceil v ≤ n := by
  have h1 := Int.floor_le (-v / 1)
  rw [div_one] at h1
  constructor
  · unfold ceil; rw [div_one]; push_cast; linarith
  · intro n hn
    unfold ceil
    rw [div_one]
    have : -n ≤ ⌊-v⌋ := by rw [Int.le_floor]; push_cast; linarith
    omega
end

example : even (-5 / 2 : ℚ) = -4 ∧ even (7 : ℚ) = 6 ∧ ceil (-5 / 2 : ℚ) = -2 ∧ ceil (5 / 2 : ℚ) = 3 := by
  decide +kernel

/-! ## argument lines -/

theorem splitWs_word (w : Str) (h : ∀ c ∈ w, isSpace c = false) (hw : w ≠ []) (t : Str)
    (ht : t = [] ∨ ∃ c u, t = c :: u ∧ isSpace c = true) : splitWs (w ++ t) = w :: splitWs t := by
  induction w with
  | nil => exact absurd rfl hw
  | cons c u ih =>
    have hc := h c (by simp)
    by_cases hu : u = []
    · subst hu
      simp only [List.cons_append, List.nil_append]
      rw [splitWs, if_neg (by simp [hc]), if_pos]
      rcases ht with rfl | ⟨d, v, rfl, hd⟩
      · rfl
      · simp [hd]
    · have := ih (fun c hc => h c (by simp [hc])) hu
      rw [List.cons_append, splitWs, if_neg (by simp [hc]), this]
      cases u with
      | nil => exact absurd rfl hu
      | cons d v =>
        have hd := h d (by simp)
        simp [hd]

theorem splitWs_space (c : Char) (t : Str) (h : isSpace c = true) : splitWs (c :: t) = splitWs t := by
  rw [splitWs, if_pos h]

/-- the text of a list of words, each followed by a space -/
def spaced (ws : List Str) : Str := ws.flatMap fun w => w ++ [' ']

/-- **C69** words written with spaces between them are read back, and a comment after `#` is ignored -/
theorem argsOfLine_words (ws : List Str) (h : ∀ w ∈ ws, w ≠ [] ∧ ∀ c ∈ w, isSpace c = false ∧ c ≠ '#') (comment : Str) :
    argsOfLine (spaced ws ++ '#' :: comment) = ws ∧ argsOfLine (spaced ws) = ws := by
  have hno : ∀ c ∈ spaced ws, (decide (c ≠ '#')) = true := by
    intro c hc
    simp only [spaced, List.mem_flatMap, List.mem_append, List.mem_singleton] at hc
    obtain ⟨w, hw, hc | rfl⟩ := hc
    · simpa using ((h w hw).2 c hc).2
    · decide
  have hsplit : splitWs (spaced ws) = ws := by
    clear hno
    induction ws with
    | nil => simp [spaced, splitWs]
    | cons w t ih =>
      have hw := h w (by simp)
      have e : spaced (w :: t) = w ++ (' ' :: spaced t) := by simp [spaced]
      rw [e, splitWs_word w (fun c hc => (hw.2 c hc).1) hw.1 _ (Or.inr ⟨' ', _, rfl, by decide⟩),
        splitWs_space _ _ (by decide), ih fun x hx => h x (by simp [hx])]
  constructor
  · unfold argsOfLine
    rw [List.takeWhile_append_of_pos hno]
    simp [hsplit]
  · unfold argsOfLine
    have := List.takeWhile_append_of_pos (l₂ := []) hno
    simp only [List.append_nil, List.takeWhile_nil] at this
    rw [this, hsplit]

theorem splitWs_mem (s : Str) (w : Str) (hw : w ∈ splitWs s) : w ≠ [] ∧ ∀ c ∈ w, isSpace c = false ∧ c ∈ s := by
  induction s generalizing w with
  | nil => simp [splitWs] at hw
  | cons c t ih =>
    rw [splitWs] at hw
    split at hw
    · obtain ⟨h1, h2⟩ := ih w hw
      exact ⟨h1, fun d hd => ⟨(h2 d hd).1, by simp [(h2 d hd).2]⟩⟩
    · rename_i hc
      have hc : isSpace c = false := by simpa using hc
      have hgen : ∀ v ∈ splitWs t, v ≠ [] ∧ ∀ d ∈ v, isSpace d = false ∧ d ∈ c :: t := by
        intro v hv
        obtain ⟨h1, h2⟩ := ih v hv
        exact ⟨h1, fun d hd => ⟨(h2 d hd).1, by simp [(h2 d hd).2]⟩⟩
      have hone : ([c] : Str) ≠ [] ∧ ∀ d ∈ ([c] : Str), isSpace d = false ∧ d ∈ c :: t := by
        refine ⟨by simp, fun d hd => ?_⟩
        rw [List.mem_singleton] at hd; subst hd; exact ⟨hc, by simp⟩
      split at hw
      · rcases List.mem_cons.1 hw with rfl | hw
        · exact hone
        · exact hgen w hw
      · split at hw
        · rw [List.mem_singleton] at hw; subst hw; exact hone
        · rename_i v vs hsp
          rw [hsp] at hgen
          rcases List.mem_cons.1 hw with rfl | hw
          · refine ⟨by simp, fun e he => ?_⟩
            rcases List.mem_cons.1 he with rfl | he
            · exact ⟨hc, by simp⟩
            · exact (hgen v (by simp)).2 e he
          · exact hgen w (by simp [hw])

/-- **C69** every argument is non-empty, has no white space and no `#` -/
theorem argsOfLine_clean (line : Str) (w : Str) (hw : w ∈ argsOfLine line) :
    w ≠ [] ∧ ∀ c ∈ w, isSpace c = false ∧ c ≠ '#' := by
  obtain ⟨h1, h2⟩ := splitWs_mem _ w hw
  refine ⟨h1, fun c hc => ⟨(h2 c hc).1, ?_⟩⟩
  have := (List.all_eq_true.1 (List.all_takeWhile (l := line) (p := fun c => decide (c ≠ '#')))) _ (h2 c hc).2
  simpa using this

example : argsOfLine "--lmax 60  # degree".toList = ["--lmax".toList, "60".toList] := by decide +kernel

end Verif.Utilities
