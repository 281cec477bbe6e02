import Verif.Gfc.Model
import Verif.Names.Search
import Verif.Dealias.Archive

/-!
# Names of gfc files and what the patterns find in them (C87)
-/
namespace Verif.Gfc
open Verif.Names Verif.Time Verif.Dates Verif.SLR
open Verif.Dealias (IsDigits)

/-! ## Specification -/

/-- the text is the word, written with the same letters, or with letters of any case if `ci` -/
def Spelled (ci : Bool) (w : String) (u : Name) : Prop :=
  if ci = true then u.map Char.toLower = w.toList.map Char.toLower else u = w.toList

/-- name of a file from Graz, for example `ITSG-Grace2018_n60_2002-04.gfc` or `model_ocean_2002-04.gfc` -/
structure ItsgName where
  pfx : Name
  sep : Char
  prod : Name
  trunc : Name
  year : Name
  month : Name
  sfx : Name

/-- the name -/
def ItsgName.text (n : ItsgName) : Name :=
  n.pfx ++ n.sep :: (n.prod ++ (n.trunc ++ '_' :: (n.year ++ '-' :: (n.month ++ n.sfx))))

/-- the parts are what they should be -/
structure ItsgName.Ok (ci : Bool) (n : ItsgName) : Prop where
  pfx : Spelled ci "model" n.pfx ∨ Spelled ci "ITSG" n.pfx ∨
    ∃ a d, n.pfx = a ++ d ∧ Spelled ci "AOD1B_RL" a ∧ IsDigits d
  sep : n.sep = '-' ∨ n.sep = '_'
  prod : ∃ w ∈ ["atmosphere", "dealiasing", "oceanBottomPressure", "ocean", "Grace2014", "Grace2016", "Grace2018",
    "Grace_operational"], Spelled ci w n.prod
  trunc : n.trunc = [] ∨ ∃ a d, n.trunc = a ++ d ∧ Spelled ci "_n" a ∧ IsDigits d
  year : IsDigits n.year
  month : IsDigits n.month
  sfx : Spelled ci ".gfc" n.sfx

/-- name of a Swarm gravity field, for example `SW_OPER_EGF_SHA_2__20131201T000000_20131231T235959_0101.ZIP` -/
structure SwarmName where
  sat : Name
  cls : Name
  prod : Name
  start : Name
  stop : Name
  rel : Name
  sfx : Name

/-- the name -/
def SwarmName.text (n : SwarmName) : Name :=
  n.sat ++ '_' :: (n.cls ++ '_' :: (n.prod ++ '_' :: '_' :: (n.start ++ '_' :: (n.stop ++ '_' :: (n.rel ++ n.sfx)))))

/-- the parts are what they should be; the free parts hold no underscore, the release no dot -/
structure SwarmName.Ok (ci : Bool) (n : SwarmName) : Prop where
  sat : Spelled ci "SW" n.sat
  cls : '_' ∉ n.cls ∧ '\n' ∉ n.cls
  prod : Spelled ci "EGF_SHA_2" n.prod
  start : '_' ∉ n.start ∧ '\n' ∉ n.start
  stop : '_' ∉ n.stop ∧ '\n' ∉ n.stop
  rel : '.' ∉ n.rel ∧ '\n' ∉ n.rel
  sfx : Spelled ci ".gfc" n.sfx ∨ Spelled ci ".ZIP" n.sfx

/-- name of a Swarm dealiasing model, for example `GAA_Swarm_60_12_2013.gfc` -/
structure SwarmModelName where
  prod : Name
  mid : Name
  trunc : Name
  month : Name
  year : Name
  sfx : Name

/-- the name -/
def SwarmModelName.text (n : SwarmModelName) : Name :=
  n.prod ++ (n.mid ++ (n.trunc ++ '_' :: (n.month ++ '_' :: (n.year ++ n.sfx))))

/-- the parts are what they should be -/
structure SwarmModelName.Ok (ci : Bool) (n : SwarmModelName) : Prop where
  prod : ∃ w ∈ ["GAA", "GAB", "GAC", "GAD"], Spelled ci w n.prod
  mid : Spelled ci "_Swarm_" n.mid
  trunc : IsDigits n.trunc
  month : n.month.length = 2 ∧ ∀ c ∈ n.month, c.isDigit = true
  year : n.year.length = 4 ∧ ∀ c ∈ n.year, c.isDigit = true
  sfx : Spelled ci ".gfc" n.sfx ∨ Spelled ci ".ZIP" n.sfx

/-! ## Literals -/

theorem spelled_same (ci : Bool) (w u : Name) :
    (if ci = true then u.map Char.toLower = w.map Char.toLower else u = w) ↔
      List.Forall₂ (fun c d => sameChar ci c d = true) w u := by
  induction w generalizing u with
  | nil => cases ci <;> cases u <;> simp
  | cons c w ih =>
    cases u with
    | nil => cases ci <;> simp
    | cons d u =>
      rw [List.forall₂_cons, ← ih]
      cases ci
      · simp only [Bool.false_eq_true, if_false, List.cons.injEq, sameChar, beq_iff_eq]
        exact ⟨fun h => ⟨h.1.symm, h.2⟩, fun h => ⟨h.1.symm, h.2⟩⟩
      · simp only [if_true, List.map_cons, List.cons.injEq, sameChar, beq_iff_eq]
        exact ⟨fun h => ⟨h.1.symm, h.2⟩, fun h => ⟨h.1.symm, h.2⟩⟩

theorem litF_cons (ci : Bool) (c : Char) (w : Name) : litF ci (c :: w) = .seq (.chr (sameChar ci c)) (litF ci w) := rfl

theorem noEnd_litF (ci : Bool) (w : Name) : NoEnd (litF ci w) := by
  induction w with
  | nil => trivial
  | cons c w ih => exact ⟨trivial, ih⟩

theorem lang_litF (ci : Bool) (w : Name) (u : Name) :
    Lang (litF ci w) u ↔ List.Forall₂ (fun c d => sameChar ci c d = true) w u := by
  induction w generalizing u with
  | nil => simp [litF, Lang]
  | cons c w ih =>
    rw [litF_cons]
    simp only [Lang, ih]
    constructor
    · rintro ⟨v, x, rfl, ⟨d, rfl, hd⟩, h⟩
      exact List.Forall₂.cons hd h
    · intro h
      cases h with
      | cons h1 h2 => exact ⟨[_], _, rfl, ⟨_, rfl, h1⟩, h2⟩

theorem lang_spelled (ci : Bool) (w : String) (u : Name) : Lang (litF ci w.toList) u ↔ Spelled ci w u := by
  rw [lang_litF, Spelled, spelled_same]

theorem runs_litF (ci : Bool) (w : String) (u r : Name) (h : Spelled ci w u) :
    runs (litF ci w.toList) (u ++ r) = [([], r)] := by
  rw [Spelled, spelled_same] at h
  generalize w.toList = x at h
  induction h with
  | nil => rfl
  | cons h1 h2 ih => rw [litF_cons]; simp [runs, h1, ih]

theorem first_litF (ci : Bool) (w : String) (u r : Name) (h : Spelled ci w u) :
    First (litF ci w.toList) (u ++ r) [] r := by
  unfold First; rw [runs_litF ci w u r h]; rfl

theorem spelled_self (ci : Bool) (w : String) : Spelled ci w w.toList := by
  unfold Spelled; split <;> rfl

theorem spelled_length {ci : Bool} {w : String} {u : Name} (h : Spelled ci w u) : u.length = w.toList.length := by
  unfold Spelled at h
  split at h
  · simpa using congrArg List.length h
  · rw [h]

theorem spelled_lower {ci : Bool} {w : String} {u : Name} (h : Spelled ci w u) :
    u.map Char.toLower = w.toList.map Char.toLower := by
  unfold Spelled at h
  split at h
  · exact h
  · rw [h]

/-- one of the words begins with the other, up to case -/
def clash (v w : Name) : Bool :=
  (v.map Char.toLower).isPrefixOf (w.map Char.toLower) || (w.map Char.toLower).isPrefixOf (v.map Char.toLower)

theorem runs_litF_none (ci : Bool) (v : Name) (w u r : Name) (h : u.map Char.toLower = w.map Char.toLower)
    (hc : clash v w = false) : runs (litF ci v) (u ++ r) = [] := by
  rw [List.eq_nil_iff_forall_not_mem]
  rintro ⟨c, q⟩ hm
  obtain ⟨x, hx, lx⟩ := (runs_lang (litF ci v) (noEnd_litF ci v) (u ++ r) q).1 ⟨c, hm⟩
  have hx' : x.map Char.toLower = v.map Char.toLower := by
    rw [lang_litF, ← spelled_same] at lx
    split at lx
    · exact lx
    · rw [lx]
  have p1 : v.map Char.toLower <+: (u ++ r).map Char.toLower := ⟨q.map Char.toLower, by rw [hx, List.map_append, hx']⟩
  have p2 : w.map Char.toLower <+: (u ++ r).map Char.toLower := ⟨r.map Char.toLower, by rw [List.map_append, h]⟩
  unfold clash at hc
  rw [Bool.or_eq_false_iff] at hc
  rcases List.prefix_or_prefix_of_prefix p1 p2 with h | h
  · rw [← List.isPrefixOf_iff_prefix] at h; rw [h] at hc; simp at hc
  · rw [← List.isPrefixOf_iff_prefix] at h; rw [h] at hc; simp at hc

/-- among literal alternatives, the first that fits is found if the earlier ones cannot begin like it -/
theorem first_words (ci : Bool) (ws : List String) (w : String) (t u r : Name) (hw : w ∈ ws) (hu : Spelled ci w u)
    (hx : ∀ v ∈ ws.takeWhile (· ≠ w), clash v.toList (w.toList ++ t) = false) :
    First (oneOf (ws.map fun p => litF ci p.toList)) (u ++ (t ++ r)) [] (t ++ r) := by
  induction ws with
  | nil => simp at hw
  | cons v vs ih =>
    by_cases hv : v = w
    · subst hv
      cases vs with
      | nil => exact first_litF ci v u _ hu
      | cons x xs => exact first_alt_left (first_litF ci v u _ hu)
    · have hw' : w ∈ vs := by
        rcases List.mem_cons.1 hw with h | h
        · exact absurd h.symm hv
        · exact h
      cases vs with
      | nil => simp at hw'
      | cons x xs =>
        refine first_alt_right ?_ (ih hw' fun y hy => hx y (by
          rw [List.takeWhile_cons_of_pos (by simpa using hv)]; exact List.mem_cons_of_mem _ hy))
        rw [← List.append_assoc]
        exact runs_litF_none ci _ (w.toList ++ t) (u ++ t) r (by rw [List.map_append, List.map_append, spelled_lower hu])
          (hx v (by rw [List.takeWhile_cons_of_pos (by simpa using hv)]; simp))

theorem head_notDigit (ci : Bool) (w : String) (u r : Name) (h : Spelled ci w u) (d : Char) (hd : w.toList.head? = some d)
    (hl : d.toLower.isDigit = false) : ∀ c ∈ (u ++ r).head?, c.isDigit = false := by
  have hl' := spelled_lower h
  cases hw : w.toList with
  | nil => rw [hw] at hd; simp at hd
  | cons a t =>
    rw [hw] at hl' hd
    cases u with
    | nil => simp at hl'
    | cons c u =>
      simp only [List.head?_cons, Option.some.injEq] at hd
      subst hd
      simp only [List.map_cons, List.cons.injEq] at hl'
      intro x hx
      simp only [List.cons_append, List.head?_cons, Option.mem_def, Option.some.injEq] at hx
      subst hx
      by_contra hc
      have hc : c.isDigit = true := by simpa using hc
      have : c.toLower = c := by
        unfold Char.isDigit at hc
        unfold Char.toLower
        simp only [Bool.and_eq_true, decide_eq_true_eq] at hc
        rw [dif_neg]
        rintro ⟨h1, -⟩
        have h3 := UInt32.le_trans h1 hc.2
        revert h3; decide
      rw [this] at hl'
      rw [← hl'.1, hc] at hl
      simp at hl

theorem toLower_underscore (x : Char) (h : x.toLower = '_') : x = '_' := by
  unfold Char.toLower at h
  split at h
  · rename_i hx
    exfalso
    have h2 := congrArg (fun c : Char => c.val.toNat) h
    obtain ⟨hx1, hx2⟩ := hx
    have e1 : 65 ≤ x.val.toNat := hx1
    have e2 : x.val.toNat ≤ 90 := hx2
    simp only [UInt32.toNat_add] at h2
    have e3 : ('a'.val - 'A'.val).toNat = 32 := by decide
    rw [e3] at h2
    have e4 : '_'.val.toNat = 95 := by decide
    omega
  · exact h

theorem toLower_dot (x : Char) (h : x.toLower = '.') : x = '.' := by
  unfold Char.toLower at h
  split at h
  · rename_i hx
    exfalso
    have h2 := congrArg (fun c : Char => c.val.toNat) h
    obtain ⟨hx1, hx2⟩ := hx
    have e1 : 65 ≤ x.val.toNat := hx1
    have e2 : x.val.toNat ≤ 90 := hx2
    simp only [UInt32.toNat_add] at h2
    have e3 : ('a'.val - 'A'.val).toNat = 32 := by decide
    rw [e3] at h2
    have e4 : '.'.val.toNat = 46 := by decide
    omega
  · exact h

theorem sameChar_sep (ci : Bool) (s x : Char) (hs : s = '_' ∨ s = '.') (h : sameChar ci s x = true) : x = s := by
  unfold sameChar at h
  split at h
  · rcases hs with rfl | rfl
    · exact toLower_underscore x (by simpa [show '_'.toLower = '_' by decide] using (beq_iff_eq.1 h).symm)
    · exact toLower_dot x (by simpa [show '.'.toLower = '.' by decide] using (beq_iff_eq.1 h).symm)
  · simpa using (beq_iff_eq.1 h).symm

/-! ## The three patterns -/

theorem first_itsg_all (ci : Bool) (n : ItsgName) (h : n.Ok ci) :
    ∃ c, First (itsgRe ci) n.text c [] ∧ group c 4 = n.year ∧ group c 5 = n.month ∧ group c 6 = n.sfx ∧
      group c 2 = n.prod := by
  -- the numbers and the suffix
  have hsfx : First (cat [.grp 6 (litF ci ".gfc".toList)]) n.sfx [(6, n.sfx)] [] := by
    have := first_litF ci ".gfc" n.sfx [] h.sfx
    have := first_cat (first_grp 6 this) (first_cat_nil [])
    simpa using this
  have hmon : First (cat [.grp 5 digits, .grp 6 (litF ci ".gfc".toList)]) (n.month ++ n.sfx) [(5, n.month), (6, n.sfx)] [] := by
    have := first_digits n.month n.sfx h.month.1 h.month.2
      (by have := head_notDigit ci ".gfc" n.sfx [] h.sfx '.' rfl (by decide); simpa using this)
    exact first_cat (first_grp 5 this) hsfx
  have hdash : First (cat [litF ci "-".toList, .grp 5 digits, .grp 6 (litF ci ".gfc".toList)])
      ('-' :: (n.month ++ n.sfx)) [(5, n.month), (6, n.sfx)] [] :=
    first_cat (first_litF ci "-" ['-'] _ (spelled_self ci "-")) hmon
  have hyear : First (cat [.grp 4 digits, litF ci "-".toList, .grp 5 digits, .grp 6 (litF ci ".gfc".toList)])
      (n.year ++ '-' :: (n.month ++ n.sfx)) [(4, n.year), (5, n.month), (6, n.sfx)] [] := by
    have := first_digits n.year ('-' :: (n.month ++ n.sfx)) h.year.1 h.year.2
      (by intro c hc; simp at hc; subst hc; decide)
    exact first_cat (first_grp 4 this) hdash
  have hus : First (cat [litF ci "_".toList, .grp 4 digits, litF ci "-".toList, .grp 5 digits, .grp 6 (litF ci ".gfc".toList)])
      ('_' :: (n.year ++ '-' :: (n.month ++ n.sfx))) [(4, n.year), (5, n.month), (6, n.sfx)] [] :=
    first_cat (first_litF ci "_" ['_'] _ (spelled_self ci "_")) hyear
  -- the optional truncation
  obtain ⟨ct, hct, htr⟩ : ∃ ct : List (ℕ × Name), (∀ i, 4 ≤ i → ct.lookup i = none) ∧
      First (cat [opt (.grp 3 (cat [litF ci "_n".toList, digits])), litF ci "_".toList, .grp 4 digits, litF ci "-".toList,
        .grp 5 digits, .grp 6 (litF ci ".gfc".toList)]) (n.trunc ++ '_' :: (n.year ++ '-' :: (n.month ++ n.sfx)))
        (ct ++ [(4, n.year), (5, n.month), (6, n.sfx)]) [] := by
    rcases h.trunc with ht | ⟨a, d, ht, ha, hd⟩
    · refine ⟨[], fun _ _ => rfl, ?_⟩
      rw [ht]
      refine first_cat (c := []) (first_alt_right ?_ ?_) hus
      · obtain ⟨y, t, hy⟩ : ∃ y t, n.year = y :: t := by
          cases hh : n.year with
          | nil => exact absurd hh h.year.1
          | cons y t => exact ⟨y, t, rfl⟩
        have hyd := h.year.2 y (by simp [hy])
        rw [hy]
        have : runs (litF ci "_n".toList) ('_' :: y :: (t ++ '-' :: (n.month ++ n.sfx))) = [] := by
          have hc : sameChar ci 'n' y = false := by
            rw [Bool.eq_false_iff]
            intro hc
            have hs : Spelled true "n" [y] := by
              unfold Spelled
              simp only [if_true]
              unfold sameChar at hc
              split at hc
              · simp at hc; simp [← hc]
              · simp at hc; simp [← hc]
            have := head_notDigit true "n" [y] [] hs 'n' rfl (by decide) y (by simp)
            rw [hyd] at this; simp at this
          have hl : litF ci "_n".toList = .seq (.chr (sameChar ci '_')) (.seq (.chr (sameChar ci 'n')) .eps) := rfl
          rw [hl]
          by_cases h_ : sameChar ci '_' '_' = true <;> simp [runs, hc, h_]
        simp only [runs, cat, List.foldr, List.nil_append, List.cons_append] at this ⊢
        rw [this]; rfl
      · rfl
    · refine ⟨[(3, n.trunc)], fun i hi => ?_, ?_⟩
      · have : (i == 3) = false := by rw [beq_eq_false_iff_ne]; omega
        simp [List.lookup, this]
      refine first_cat (c := [(3, n.trunc)]) (first_alt_left ?_) hus
      refine first_grp 3 ?_
      rw [ht, List.append_assoc]
      refine first_cat (c := []) (d := []) (first_litF ci "_n" a _ ha) ?_
      refine first_cat (c := []) (d := []) (first_digits d _ hd.1 hd.2 ?_) (first_cat_nil _)
      intro c hc; simp at hc; subst hc; decide
  -- the product
  obtain ⟨w, hw, hp⟩ := h.prod
  have hprod : First (oneOf (itsgProducts.map fun p => litF ci p.toList))
      (n.prod ++ (n.trunc ++ '_' :: (n.year ++ '-' :: (n.month ++ n.sfx)))) []
      (n.trunc ++ '_' :: (n.year ++ '-' :: (n.month ++ n.sfx))) := by
    have hcl : ∀ w ∈ itsgProducts, ∀ v ∈ itsgProducts.takeWhile (· ≠ w), clash v.toList (w.toList ++ ['_']) = false := by
      decide +kernel
    obtain ⟨r, hr⟩ : ∃ r, n.trunc ++ '_' :: (n.year ++ '-' :: (n.month ++ n.sfx)) = ['_'] ++ r := by
      rcases h.trunc with ht | ⟨a, d, ht, ha, hd⟩
      · exact ⟨_, by rw [ht]; rfl⟩
      · have hl := spelled_lower ha
        cases a with
        | nil => simp at hl
        | cons x a =>
          simp only [List.map_cons, show "_n".toList = ['_', 'n'] from rfl, List.cons.injEq] at hl
          have hx : x = '_' := toLower_underscore x hl.1
          exact ⟨_, by rw [ht, hx]; rfl⟩
    rw [hr]
    exact first_words ci _ w ['_'] n.prod r hw hp (hcl w hw)
  have h2 := first_cat (first_grp 2 hprod) htr
  have h3 : First (cat [.chr (fun c => c == '-' || c == '_'),
       .grp 2 (oneOf (itsgProducts.map fun p => litF ci p.toList)),
       opt (.grp 3 (cat [litF ci "_n".toList, digits])),
       litF ci "_".toList, .grp 4 digits, litF ci "-".toList, .grp 5 digits, .grp 6 (litF ci ".gfc".toList)])
      (n.sep :: (n.prod ++ (n.trunc ++ '_' :: (n.year ++ '-' :: (n.month ++ n.sfx))))) _ [] :=
    first_cat (c := []) (first_chr _ n.sep _ (by rcases h.sep with hs | hs <;> rw [hs] <;> rfl)) h2
  -- the prefix
  have h1 : First (oneOf [cat [litF ci "AOD1B_RL".toList, digits], litF ci "model".toList, litF ci "ITSG".toList]) n.text []
      (n.sep :: (n.prod ++ (n.trunc ++ '_' :: (n.year ++ '-' :: (n.month ++ n.sfx))))) := by
    unfold ItsgName.text
    rcases h.pfx with hp | hp | ⟨a, d, hpd, ha, hd⟩
    · refine first_alt_right (runs_seq_none (runs_litF_none ci _ "model".toList _ _ (spelled_lower hp) (by decide +kernel))) ?_
      exact first_alt_left (first_litF ci "model" _ _ hp)
    · refine first_alt_right (runs_seq_none (runs_litF_none ci _ "ITSG".toList _ _ (spelled_lower hp) (by decide +kernel))) ?_
      refine first_alt_right (runs_litF_none ci _ "ITSG".toList _ _ (spelled_lower hp) (by decide +kernel)) ?_
      exact first_litF ci "ITSG" _ _ hp
    · refine first_alt_left ?_
      rw [hpd, List.append_assoc]
      refine first_cat (c := []) (d := []) (first_litF ci "AOD1B_RL" a _ ha) ?_
      refine first_cat (c := []) (d := []) (first_digits d _ hd.1 hd.2 ?_) (first_cat_nil _)
      intro c hc; simp at hc; subst hc
      rcases h.sep with hs | hs <;> rw [hs] <;> decide
  refine ⟨_, first_cat (first_grp 1 h1) h3, ?_, ?_, ?_, ?_⟩
  · simp [group, List.lookup, List.lookup_append, hct 4 (by norm_num)]
  · simp [group, List.lookup, List.lookup_append, hct 5 (by norm_num)]
  · simp [group, List.lookup, List.lookup_append, hct 6 (by norm_num)]
  · simp [group, List.lookup, List.lookup_append]

theorem first_itsg (ci : Bool) (n : ItsgName) (h : n.Ok ci) :
    ∃ c, First (itsgRe ci) n.text c [] ∧ group c 4 = n.year ∧ group c 5 = n.month ∧ group c 6 = n.sfx := by
  obtain ⟨c, h1, h2, h3, h4, -⟩ := first_itsg_all ci n h
  exact ⟨c, h1, h2, h3, h4⟩

/-- a lazy group ends at the first separator -/
theorem first_until (i : ℕ) (es : List Re) (u r q : Name) (d) (hu : '\n' ∉ u) (hb : First (cat es) r d q)
    (hsep : ∀ c w, c ∈ u → runs (cat es) (c :: w) = []) :
    First (cat (.grp i (.many false anyChar) :: es)) (u ++ r) ((i, u) :: d) q := by
  refine first_lazy i anyChar (cat es) u r q d (fun c hc => ?_) hb fun v w hvw hlen => ?_
  · simp only [anyChar, bne_iff_ne, ne_eq]
    rintro rfl; exact hu hc
  · have hpre : v <+: u := List.prefix_of_prefix_length_le (l₃ := u ++ r) ⟨w, hvw.symm⟩ ⟨r, rfl⟩ hlen.le
    obtain ⟨x, rfl⟩ := hpre
    rw [List.append_assoc] at hvw
    have := List.append_cancel_left hvw
    cases x with
    | nil => simp at hlen
    | cons c x => rw [← this, List.cons_append]; exact hsep c _ (by simp)

theorem runs_cat_lit_none (ci : Bool) (s c : Char) (t w : Name) (es : List Re) (hs : s = '_' ∨ s = '.') (hc : c ≠ s) :
    runs (cat (litF ci (s :: t) :: es)) (c :: w) = [] := by
  refine runs_seq_none ?_
  rw [litF_cons]
  refine runs_seq_none ?_
  have : sameChar ci s c = false := by
    rw [Bool.eq_false_iff]; intro h; exact hc (sameChar_sep ci s c hs h)
  simp [runs, this]

theorem first_suffix (ci : Bool) (u : Name) (h : Spelled ci ".gfc" u ∨ Spelled ci ".ZIP" u) :
    First (suffixRe ci) (u ++ []) [] [] := by
  rcases h with h | h
  · exact first_alt_left (first_litF ci _ u [] h)
  · exact first_alt_right (runs_litF_none ci _ ".ZIP".toList _ _ (spelled_lower h) (by decide +kernel)) (first_litF ci _ u [] h)

theorem first_swarm (ci : Bool) (n : SwarmName) (h : n.Ok ci) :
    First (swarmRe ci) n.text [(1, n.sat), (2, n.cls), (3, n.prod), (4, n.start), (5, n.stop), (6, n.rel), (7, n.sfx)] [] := by
  have f7 : First (cat [.grp 7 (suffixRe ci)]) n.sfx [(7, n.sfx)] [] := by
    have := first_cat (first_grp 7 (first_suffix ci n.sfx h.sfx)) (first_cat_nil [])
    simpa using this
  have f6 : First (cat [.grp 6 (.many false anyChar), .grp 7 (suffixRe ci)]) (n.rel ++ n.sfx) [(6, n.rel), (7, n.sfx)] [] := by
    refine first_until 6 _ n.rel n.sfx [] _ h.rel.2 f7 fun c w hc => ?_
    have hne : c ≠ '.' := by rintro rfl; exact h.rel.1 hc
    have hno : sameChar ci '.' c = false := by
      rw [Bool.eq_false_iff]; intro hh; exact hne (sameChar_sep ci '.' c (Or.inr rfl) hh)
    refine runs_seq_none ?_
    have e1 : runs (litF ci ".gfc".toList) (c :: w) = [] := by
      rw [show ".gfc".toList = '.' :: "gfc".toList from rfl, litF_cons]
      exact runs_seq_none (by simp [runs, hno])
    have e2 : runs (litF ci ".ZIP".toList) (c :: w) = [] := by
      rw [show ".ZIP".toList = '.' :: "ZIP".toList from rfl, litF_cons]
      exact runs_seq_none (by simp [runs, hno])
    simp only [runs, suffixRe, e1, e2]; rfl
  have sep : ∀ (es : List Re) (r : Name) (d q), First (cat es) r d q → First (cat (litF ci "_".toList :: es)) ('_' :: r) d q :=
    fun es r d q hh => first_cat (c := []) (first_litF ci "_" ['_'] r (spelled_self ci "_")) hh
  have f5 := first_until 5 _ n.stop _ [] _ h.stop.2 (sep _ _ _ _ f6) (fun c w hc =>
    runs_cat_lit_none ci '_' c [] w _ (Or.inl rfl) (by rintro rfl; exact h.stop.1 hc))
  have f4 := first_until 4 _ n.start _ [] _ h.start.2 (sep _ _ _ _ f5) (fun c w hc =>
    runs_cat_lit_none ci '_' c [] w _ (Or.inl rfl) (by rintro rfl; exact h.start.1 hc))
  have f4' := first_cat (c := []) (e := litF ci "__".toList) (first_litF ci "__" ['_', '_'] _ (spelled_self ci "__")) f4
  have f3 := first_cat (first_grp 3 (first_litF ci "EGF_SHA_2" n.prod _ h.prod)) f4'
  have f2 := first_until 2 _ n.cls _ [] _ h.cls.2 (sep _ _ _ _ f3) (fun c w hc =>
    runs_cat_lit_none ci '_' c [] w _ (Or.inl rfl) (by rintro rfl; exact h.cls.1 hc))
  exact first_cat (first_grp 1 (first_litF ci "SW" n.sat _ h.sat)) (sep _ _ _ _ f2)

theorem first_swarmModel (ci : Bool) (n : SwarmModelName) (h : n.Ok ci) :
    First (swarmModelRe ci) n.text [(1, n.prod), (2, n.trunc), (3, n.month), (4, n.year), (5, n.sfx)] [] := by
  have f5 : First (cat [.grp 5 (suffixRe ci)]) n.sfx [(5, n.sfx)] [] := by
    have := first_cat (first_grp 5 (first_suffix ci n.sfx h.sfx)) (first_cat_nil [])
    simpa using this
  have sep : ∀ (es : List Re) (r : Name) (d q), First (cat es) r d q → First (cat (litF ci "_".toList :: es)) ('_' :: r) d q :=
    fun es r d q hh => first_cat (c := []) (first_litF ci "_" ['_'] r (spelled_self ci "_")) hh
  have t4 := first_times n.year n.sfx h.year.2
  rw [h.year.1] at t4
  have f4 := first_cat (first_grp 4 t4) f5
  have t3 := first_times n.month ('_' :: (n.year ++ n.sfx)) h.month.2
  rw [h.month.1] at t3
  have f3 := first_cat (first_grp 3 t3) (sep _ _ _ _ f4)
  have f2 := first_cat (first_grp 2 (first_digits n.trunc ('_' :: (n.month ++ '_' :: (n.year ++ n.sfx))) h.trunc.1 h.trunc.2
    (by intro c hc; simp at hc; subst hc; decide))) (sep _ _ _ _ f3)
  have f1 := first_cat (c := []) (first_litF ci "_Swarm_" n.mid _ h.mid) f2
  obtain ⟨w, hw, hp⟩ := h.prod
  have f0 := first_words ci ["GAA", "GAB", "GAC", "GAD"] w [] n.prod
    (n.mid ++ (n.trunc ++ '_' :: (n.month ++ '_' :: (n.year ++ n.sfx)))) hw hp (by
      have : ∀ w ∈ ["GAA", "GAB", "GAC", "GAD"], ∀ v ∈ ["GAA", "GAB", "GAC", "GAD"].takeWhile (· ≠ w),
        clash v.toList (w.toList ++ []) = false := by decide +kernel
      exact this w hw)
  exact first_cat (first_grp 1 f0) f1

theorem findall_whole (e : Re) (s : Name) (c) (h : First e s c []) (hs : s ≠ []) (he : runs e [] = []) :
    findall e s = [c] := by
  have := findall_single e [] s c [] (by simp) h (List.length_pos_iff.2 hs) (fun k => by simpa using he)
  simpa using this

theorem runs_itsg_nil (ci : Bool) : runs (itsgRe ci) [] = [] := by
  refine runs_seq_none ?_
  have : runs (oneOf [cat [litF ci "AOD1B_RL".toList, digits], litF ci "model".toList, litF ci "ITSG".toList]) [] = [] := by
    cases ci <;> rfl
  simp only [runs, this]; rfl

theorem runs_swarm_nil (ci : Bool) : runs (swarmRe ci) [] = [] := by
  refine runs_seq_none ?_
  have : runs (litF ci "SW".toList) [] = [] := by cases ci <;> rfl
  simp only [runs, this]; rfl

theorem runs_swarmModel_nil (ci : Bool) : runs (swarmModelRe ci) [] = [] := by
  refine runs_seq_none ?_
  have : runs (oneOf (["GAA", "GAB", "GAC", "GAD"].map fun p => litF ci p.toList)) [] = [] := by cases ci <;> rfl
  simp only [runs, this]; rfl

theorem accepts_first {e : Re} {s : Name} {c r} (h : First e s c r) : accepts e s = true := by
  obtain ⟨l, hl⟩ := (first_iff ..).1 h
  unfold accepts; rw [hl]; rfl

theorem text_ne_itsg (n : ItsgName) : n.text ≠ [] := by simp [ItsgName.text]
theorem text_ne_swarm (n : SwarmName) : n.text ≠ [] := by simp [SwarmName.text]
theorem text_ne_swarmModel (n : SwarmModelName) : n.text ≠ [] := by simp [SwarmModelName.text]

/-- a correctly written name is correctly written up to case -/
theorem spelled_any {ci : Bool} {w : String} {u : Name} (h : Spelled ci w u) : Spelled true w u := by
  have := spelled_lower h
  unfold Spelled; simpa using this

theorem ItsgName.Ok.any {ci : Bool} {n : ItsgName} (h : n.Ok ci) : n.Ok true where
  pfx := by
    rcases h.pfx with hp | hp | ⟨a, d, hpd, ha, hd⟩
    · exact Or.inl (spelled_any hp)
    · exact Or.inr (Or.inl (spelled_any hp))
    · exact Or.inr (Or.inr ⟨a, d, hpd, spelled_any ha, hd⟩)
  sep := h.sep
  prod := by obtain ⟨w, hw, hp⟩ := h.prod; exact ⟨w, hw, spelled_any hp⟩
  trunc := by
    rcases h.trunc with ht | ⟨a, d, ht, ha, hd⟩
    · exact Or.inl ht
    · exact Or.inr ⟨a, d, ht, spelled_any ha, hd⟩
  year := h.year
  month := h.month
  sfx := spelled_any h.sfx

theorem SwarmName.Ok.any {ci : Bool} {n : SwarmName} (h : n.Ok ci) : n.Ok true where
  sat := spelled_any h.sat
  cls := h.cls
  prod := spelled_any h.prod
  start := h.start
  stop := h.stop
  rel := h.rel
  sfx := h.sfx.imp spelled_any spelled_any

end Verif.Gfc
