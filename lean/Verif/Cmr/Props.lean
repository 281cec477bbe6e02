import Verif.Cmr.Model
import Mathlib.Tactic.SplitIfs
import Mathlib.Tactic.Common

/-!
# C104: which products and granules a CMR query asks for
-/
namespace Verif.Cmr

/-! ## Short names -/

/-- Specification: the collections that exist -/
def available : List (String × String × String × String) :=
  [("grace", "L1B", "GFZ", "RL06"), ("grace", "L1B", "JPL", "RL02"), ("grace", "L1B", "JPL", "RL03"),
   ("grace", "L2", "CSR", "RL06"), ("grace", "L2", "GFZ", "RL06"), ("grace", "L2", "JPL", "RL06"),
   ("grace-fo", "L1A", "JPL", "RL04"), ("grace-fo", "L1B", "JPL", "RL04"),
   ("grace-fo", "L2", "CSR", "RL06"), ("grace-fo", "L2", "GFZ", "RL06"), ("grace-fo", "L2", "JPL", "RL06")]

/-- **A query has short names exactly for the available collections**, whatever version and products. -/
theorem shortnames_isSome (mission center release level version : String) (products : List String) :
    (shortnames mission center release level version products).isSome ↔ (mission, level, center, release) ∈ available := by
  simp only [available, List.mem_cons, Prod.mk.injEq, List.not_mem_nil, or_false]
  unfold shortnames
  constructor
  · intro h
    split_ifs at h <;> simp_all
  · rintro (⟨rfl, rfl, rfl, rfl⟩ | ⟨rfl, rfl, rfl, rfl⟩ | ⟨rfl, rfl, rfl, rfl⟩ | ⟨rfl, rfl, rfl, rfl⟩ | ⟨rfl, rfl, rfl, rfl⟩ |
      ⟨rfl, rfl, rfl, rfl⟩ | ⟨rfl, rfl, rfl, rfl⟩ | ⟨rfl, rfl, rfl, rfl⟩ | ⟨rfl, rfl, rfl, rfl⟩ | ⟨rfl, rfl, rfl, rfl⟩ |
      ⟨rfl, rfl, rfl, rfl⟩) <;> simp

/-- **One collection for each product of the GRACE Level-2 fields**, in the order of the products; of CSR there are none of
the atmosphere and the ocean. -/
theorem shortnames_grace (center version : String) (hc : center = "CSR" ∨ center = "GFZ" ∨ center = "JPL")
    (products : List String) :
    shortnames "grace" center "RL06" "L2" version products = some
      ((products.filter fun p => !(center == "CSR" && (p == "GAA" || p == "GAB"))).map
        fun p => "GRACE_" ++ p ++ "_L2_GRAV_" ++ center ++ "_RL06") := by
  unfold shortnames
  rw [if_pos rfl, if_neg (by decide), if_pos rfl, if_pos ⟨hc, rfl⟩]
  unfold graceL2
  congr 1
  induction products with
  | nil => rfl
  | cons p ps ih =>
    rw [List.filterMap_cons, ih]
    by_cases h : center = "CSR" ∧ (p = "GAA" ∨ p = "GAB")
    · rw [if_pos h, List.filter_cons_of_neg]
      rcases h with ⟨rfl, rfl | rfl⟩ <;> simp
    · have hk : (!(center == "CSR" && (p == "GAA" || p == "GAB"))) = true := by
        simp only [Bool.not_eq_true', Bool.and_eq_false_iff, beq_eq_false_iff_ne, Bool.or_eq_false_iff]
        by_cases hcc : center = "CSR"
        · right
          exact ⟨fun e => h ⟨hcc, Or.inl e⟩, fun e => h ⟨hcc, Or.inr e⟩⟩
        · left; exact hcc
      rw [if_neg h, List.filter_cons_of_pos (p := fun p => !(center == "CSR" && (p == "GAA" || p == "GAB"))) hk, List.map_cons]
      have e : ("_RL06" : String) = "_" ++ "RL06" := by decide
      simp only [e, String.append_assoc]

/-- **A single product has a single collection**, which is what the test of the S3 bucket unpacks, but for atmosphere and ocean
of CSR, where that test fails although the query would be answered. -/
theorem shortnames_single (mission center version p : String) (hm : mission = "grace" ∨ mission = "grace-fo")
    (hc : center = "CSR" ∨ center = "GFZ" ∨ center = "JPL") :
    (∃ n, shortnames mission center "RL06" "L2" version [p] = some [n]) ↔
      ¬ (mission = "grace" ∧ center = "CSR" ∧ (p = "GAA" ∨ p = "GAB")) := by
  rcases hm with rfl | rfl
  · rw [shortnames_grace center version hc]
    by_cases h : center = "CSR" ∧ (p = "GAA" ∨ p = "GAB")
    · rcases h with ⟨rfl, rfl | rfl⟩ <;> simp
    · constructor
      · intro _ hh; exact h hh.2
      · intro _
        refine ⟨"GRACE_" ++ p ++ "_L2_GRAV_" ++ center ++ "_RL06", ?_⟩
        rw [List.filter_cons_of_pos]
        · rfl
        · simp only [Bool.not_eq_true', Bool.and_eq_false_iff, beq_eq_false_iff_ne, Bool.or_eq_false_iff]
          by_cases hcc : center = "CSR"
          · right
            exact ⟨fun e => h ⟨hcc, Or.inl e⟩, fun e => h ⟨hcc, Or.inr e⟩⟩
          · left; exact hcc
  · constructor
    · intro _ hh; exact absurd hh.1 (by decide)
    · intro _
      unfold shortnames
      rw [if_neg (by decide), if_pos rfl, if_neg (by decide), if_pos rfl, if_pos ⟨hc, rfl⟩]
      exact ⟨_, rfl⟩

/-! ## Granules -/

/-- a text without wildcards -/
def Plain (l : List Char) : Prop := '*' ∉ l ∧ '?' ∉ l

/-- a pattern without `*` matches characters one by one -/
theorem glob_append (p : List Char) : ∀ (q n k : List Char), '*' ∉ p → p.length = n.length →
    glob (p ++ q) (n ++ k) = ((List.zipWith (fun a c => a == '?' || a == c) p n).all id && glob q k) := by
  induction p with
  | nil =>
    intro q n k _ hl
    cases n with
    | nil => simp
    | cons c n => simp at hl
  | cons a p ih =>
    intro q n k hs hl
    cases n with
    | nil => simp at hl
    | cons c n =>
      rw [List.cons_append, List.cons_append, glob, if_neg (fun e => hs (by rw [e]; exact List.mem_cons_self)),
        ih q n k (fun h => hs (List.mem_cons_of_mem _ h)) (by simpa using hl)]
      simp only [List.zipWith_cons_cons, List.all_cons, id]
      rw [Bool.and_assoc]

theorem plain_all (p : List Char) : ∀ n : List Char, Plain p → p.length = n.length →
    ((List.zipWith (fun a c => a == '?' || a == c) p n).all id = true ↔ n = p) := by
  induction p with
  | nil => intro n _ hl; cases n with
    | nil => simp
    | cons c n => simp at hl
  | cons a p ih =>
    intro n hp hl
    cases n with
    | nil => simp at hl
    | cons c n =>
      have h1 : a ≠ '?' := fun e => hp.2 (by rw [e]; exact List.mem_cons_self)
      have h2 : Plain p := ⟨fun h => hp.1 (List.mem_cons_of_mem _ h), fun h => hp.2 (List.mem_cons_of_mem _ h)⟩
      simp only [List.zipWith_cons_cons, List.all_cons, id, Bool.and_eq_true, Bool.or_eq_true, beq_iff_eq, List.cons.injEq]
      rw [ih n h2 (by simpa using hl)]
      constructor
      · rintro ⟨h | h, e⟩
        · exact absurd h h1
        · exact ⟨h.symm, e⟩
      · rintro ⟨h, e⟩
        exact ⟨Or.inr h.symm, e⟩

theorem any_all (p : List Char) : ∀ n : List Char, (∀ a ∈ p, a = '?') →
    (List.zipWith (fun a c => a == '?' || a == c) p n).all id = true := by
  induction p with
  | nil => intro n _; simp
  | cons a p ih =>
    intro n hp
    cases n with
    | nil => simp
    | cons c n =>
      simp only [List.zipWith_cons_cons, List.all_cons, id]
      rw [ih n fun b hb => hp b (List.mem_cons_of_mem _ hb), hp a List.mem_cons_self]
      rfl

theorem ends_nil (n : List Char) : [] ∈ ends n := by
  induction n with
  | nil => simp [ends]
  | cons c n ih => rw [ends]; exact List.mem_cons_of_mem _ ih

theorem glob_star (n : List Char) : glob ['*'] n = true := by
  rw [glob.eq_def]
  show (if '*' = '*' then (ends n).any fun k => glob [] k else _) = true
  rw [if_pos rfl, List.any_eq_true]
  exact ⟨[], ends_nil n, rfl⟩

/-- a plain text and a `*` at the end of a pattern: the rest of the name begins with the text -/
theorem glob_prefix (v : List Char) : ∀ n : List Char, Plain v → (glob (v ++ ['*']) n = true ↔ v <+: n) := by
  induction v with
  | nil => intro n _; simp [glob_star]
  | cons a v ih =>
    intro n hv
    have h1 : a ≠ '?' := fun e => hv.2 (by rw [e]; exact List.mem_cons_self)
    have h0 : a ≠ '*' := fun e => hv.1 (by rw [e]; exact List.mem_cons_self)
    have h2 : Plain v := ⟨fun h => hv.1 (List.mem_cons_of_mem _ h), fun h => hv.2 (List.mem_cons_of_mem _ h)⟩
    rw [List.cons_append]
    cases n with
    | nil => rw [glob, if_neg h0]; simp
    | cons c n =>
      rw [glob, if_neg h0]
      simp only [Bool.and_eq_true, Bool.or_eq_true, beq_iff_eq]
      rw [ih n h2, List.cons_prefix_cons]
      constructor
      · rintro ⟨h | h, e⟩
        · exact absurd h h1
        · exact ⟨h, e⟩
      · rintro ⟨h, e⟩; exact ⟨Or.inr h, e⟩

/-- Specification: the name of a Level-2 granule: product, first and last day, mission, center, solution, and the release and
version numbers with anything after them -/
def granuleName (product first last mission center solution release : List Char) : List Char :=
  product ++ "-2_".toList ++ first ++ "-".toList ++ last ++ "_".toList ++ mission ++ "_".toList ++ center ++ "_".toList ++
    solution ++ "_".toList ++ release

/-- the pattern, cut as the name is -/
theorem l2Pattern_cut (product solution version : List Char) : l2Pattern product solution version =
    product ++ ("-2_".toList ++ ("???????".toList ++ ("-".toList ++ ("???????".toList ++ ("_".toList ++ ("????".toList ++ ("_".toList ++ ("?????".toList ++
      ("_".toList ++ (solution ++ ("_".toList ++ ("???".toList ++ (version ++ "*".toList))))))))))))) := by
  have e : "-2_???????-???????_????_?????_".toList = "-2_".toList ++ ("???????".toList ++ ("-".toList ++ ("???????".toList ++
      ("_".toList ++ ("????".toList ++ ("_".toList ++ ("?????".toList ++ "_".toList))))))) := by decide
  have e2 : "_???".toList = "_".toList ++ "???".toList := by decide
  unfold l2Pattern
  rw [e, e2]
  simp only [List.append_assoc]

/-- **Which granules are selected**: those of the product and the solution whose release and version go on with the version
asked for after three characters; dates, mission and center do not matter. -/
theorem granule_selected (product solution version : List Char) (hp : Plain product) (hs : Plain solution) (hv : Plain version)
    (product' first last mission center solution' release : List Char) (h0 : product'.length = product.length)
    (h1 : first.length = 7) (h2 : last.length = 7) (h3 : mission.length = 4) (h4 : center.length = 5)
    (h5 : solution'.length = solution.length) (h6 : 3 ≤ release.length) :
    glob (l2Pattern product solution version) (granuleName product' first last mission center solution' release) = true ↔
      product' = product ∧ solution' = solution ∧ version <+: release.drop 3 := by
  have hn : granuleName product' first last mission center solution' release =
      product' ++ ("-2_".toList ++ (first ++ ("-".toList ++ (last ++ ("_".toList ++ (mission ++ ("_".toList ++ (center ++
        ("_".toList ++ (solution' ++ ("_".toList ++ (release.take 3 ++ release.drop 3)))))))))))) := by
    unfold granuleName
    rw [List.take_append_drop]
    simp only [List.append_assoc]
  have p2 : Plain "-2_".toList := by constructor <;> decide
  have pd : Plain "-".toList := by constructor <;> decide
  have pu : Plain "_".toList := by constructor <;> decide
  have q7 : ∀ a ∈ "???????".toList, a = '?' := by decide
  have q4 : ∀ a ∈ "????".toList, a = '?' := by decide
  have q5 : ∀ a ∈ "?????".toList, a = '?' := by decide
  have q3 : ∀ a ∈ "???".toList, a = '?' := by decide
  rw [hn, l2Pattern_cut]
  rw [glob_append product _ _ _ hp.1 h0.symm, glob_append "-2_".toList _ _ _ p2.1 rfl,
    glob_append "???????".toList _ _ _ (by decide) (by rw [h1]; rfl), glob_append "-".toList _ _ _ pd.1 rfl,
    glob_append "???????".toList _ _ _ (by decide) (by rw [h2]; rfl), glob_append "_".toList _ _ _ pu.1 rfl,
    glob_append "????".toList _ _ _ (by decide) (by rw [h3]; rfl), glob_append "_".toList _ _ _ pu.1 rfl,
    glob_append "?????".toList _ _ _ (by decide) (by rw [h4]; rfl), glob_append "_".toList _ _ _ pu.1 rfl,
    glob_append solution _ _ _ hs.1 h5.symm, glob_append "_".toList _ _ _ pu.1 rfl,
    glob_append "???".toList _ _ _ (by decide) (by rw [List.length_take, Nat.min_eq_left h6]; rfl)]
  rw [any_all _ first q7, any_all _ last q7, any_all _ mission q4, any_all _ center q5, any_all _ _ q3]
  rw [(plain_all _ _ p2 rfl).2 rfl, (plain_all _ _ pd rfl).2 rfl, (plain_all _ _ pu rfl).2 rfl]
  simp only [Bool.true_and, Bool.and_eq_true]
  rw [plain_all product product' hp h0.symm, plain_all solution solution' hs h5.symm]
  have : ("*".toList : List Char) = ['*'] := by decide
  rw [this, glob_prefix version _ hv]

/-- **Fields of gravity**: a query for `GSM` selects the granules of the solution asked for. -/
theorem query_gsm (solution version : String) (hs : Plain solution.toList) (hl : solution.toList.length = 4) (hv : Plain version.toList)
    (product first last mission center sol release : List Char) (h0 : product.length = 3) (h1 : first.length = 7)
    (h2 : last.length = 7) (h3 : mission.length = 4) (h4 : center.length = 5) (h5 : sol.length = 4) (h6 : 3 ≤ release.length) :
    glob (granules (some "GSM") "L2" solution version) (granuleName product first last mission center sol release) = true ↔
      product = "GSM".toList ∧ sol = solution.toList ∧ version.toList <+: release.drop 3 := by
  unfold granules
  rw [if_neg (by decide), if_neg (by decide), if_pos ⟨rfl, rfl⟩]
  exact granule_selected _ _ _ (by constructor <;> decide) hs hv _ _ _ _ _ _ _ (by rw [h0]; rfl) h1 h2 h3 h4 (by rw [h5, hl]) h6

/-- **Dealiasing fields**: a query for another product selects its granules of solution `BC01`, whatever solution is asked
for. -/
theorem query_dealias (p solution version : String) (hp : p ≠ "GSM") (hpl : p.toList.length = 3) (hpp : Plain p.toList)
    (hv : Plain version.toList) (product first last mission center sol release : List Char) (h0 : product.length = 3)
    (h1 : first.length = 7) (h2 : last.length = 7) (h3 : mission.length = 4) (h4 : center.length = 5) (h5 : sol.length = 4)
    (h6 : 3 ≤ release.length) :
    glob (granules (some p) "L2" solution version) (granuleName product first last mission center sol release) = true ↔
      product = p.toList ∧ sol = "BC01".toList ∧ version.toList <+: release.drop 3 := by
  unfold granules
  rw [if_neg (by simp), if_neg (by decide), if_neg (by simpa using hp), if_pos rfl]
  exact granule_selected _ _ _ hpp (by constructor <;> decide) hv _ _ _ _ _ _ _ (by rw [h0, ← hpl]) h1 h2 h3 h4 (by rw [h5]; rfl) h6

/-- **Deviation: versions of two digits.** The pattern skips three of the four digits of release and version: asking for
version `0` selects every version that ends with 0, and no granule whose name ends with the four digits has a version of two
digits that can be asked for. -/
theorem query_version (solution : String) (hs : Plain solution.toList) (hl : solution.toList.length = 4)
    (first last mission center : List Char) (h1 : first.length = 7) (h2 : last.length = 7) (h3 : mission.length = 4)
    (h4 : center.length = 5) (r1 r2 v1 v2 : Char) (w : String) (hw : Plain w.toList) :
    (glob (granules (some "GSM") "L2" solution w)
        (granuleName "GSM".toList first last mission center solution.toList [r1, r2, v1, v2]) = true ↔
      w.toList = [] ∨ w.toList = [v2]) := by
  rw [query_gsm solution w hs hl hw _ _ _ _ _ _ _ rfl h1 h2 h3 h4 hl (by simp)]
  simp only [true_and, List.drop_succ_cons, List.drop_zero]
  constructor
  · rintro ⟨t, ht⟩
    cases hwl : w.toList with
    | nil => left; rfl
    | cons a l =>
      right
      rw [hwl] at ht
      simp only [List.cons_append, List.cons.injEq, List.append_eq_nil_iff] at ht
      rw [ht.1, ht.2.1]
  · rintro (h | h) <;> rw [h] <;> simp

/-- **Deviation: no product.** Without a product, the default of `cmr`, no Level-2 granule is selected: the pattern begins with
`None`. -/
theorem query_no_product (solution version : String)
    (product first last mission center sol release : List Char) (h0 : product.length = 3) :
    glob (granules none "L2" solution version) (granuleName product first last mission center sol release) = false := by
  unfold granules
  rw [if_neg (by simp), if_neg (by decide), if_neg (by simp), if_pos rfl]
  rw [l2Pattern_cut]
  unfold granuleName
  simp only [List.append_assoc]
  match product, h0 with
  | [a, b, c], _ =>
    show glob ('N' :: 'o' :: 'n' :: 'e' :: _) (a :: b :: c :: '-' :: _) = false
    simp only [glob]
    simp

/-! ## Concrete cases -/

example : shortnames "grace" "CSR" "RL06" "L2" "0" allProducts =
    some ["GRACE_GAC_L2_GRAV_CSR_RL06", "GRACE_GAD_L2_GRAV_CSR_RL06", "GRACE_GSM_L2_GRAV_CSR_RL06"] := by decide +kernel
example : shortnames "grace-fo" "JPL" "RL06" "L2" "3" allProducts = some ["GRACEFO_L2_JPL_MONTHLY_0063"] := by decide +kernel
example : shortnames "grace" "JPL" "RL05" "L2" "0" allProducts = none := by decide +kernel
example : glob (granules (some "GSM") "L2" "BA01" "0") "GSM-2_2002095-2002120_GRAC_UTCSR_BA01_0600".toList = true := by
  decide +kernel
example : glob (granules (some "GSM") "L2" "BA01" "0") "GSM-2_2002095-2002120_GRAC_UTCSR_BB01_0600".toList = false := by
  decide +kernel
example : granuleName "GSM".toList "2002095".toList "2002120".toList "GRAC".toList "UTCSR".toList "BA01".toList "0600".toList =
    "GSM-2_2002095-2002120_GRAC_UTCSR_BA01_0600".toList := by decide +kernel
example : Plain "GSM".toList ∧ Plain "BA01".toList ∧ Plain "0".toList := by unfold Plain; decide

end Verif.Cmr
