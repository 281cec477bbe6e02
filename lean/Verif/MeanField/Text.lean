import Verif.MeanField.Props
import Verif.GraceText.Writer
import Verif.GraceText.Props
import Verif.SpatialError.Props3

/-!
# C93: the mean field in text files
-/
namespace Verif.MeanField
open Verif.Harmonics Verif.SLR Verif.SpatialIO Verif.GraceText
open Verif (lmPairs mem_lmPairs)
open Verif.HarmIO (RoundedSig roundSig sciParts expDigits fmtD)
open Verif.GIA (Tok)

/-- C93: the mean file in text form is always written, and a program that reads it as static field finds the means of the
coefficients rounded to thirteen significant digits -/
theorem text_file (root : SpatialIO.Data.Attrs) (j : Job) (sqrt : ℚ → ℚ) (g : Months ℚ) (L M n : ℕ) (hn : 0 < n) (G : g.Ok L M n) :
    ∃ lines o, writeMean "ascii".toList root j sqrt g = .ok (.text lines) ∧ HarmIO.fromAscii false lines = .ok o ∧
      o.lmax = L ∧ o.mmax = M ∧ (∀ l m, m ≤ l → l ≤ L → m ≤ M → ∃ c s, o.clm l m = some c ∧ o.slm l m = some s ∧
        RoundedSig 12 (g.meanC n l m) c ∧ RoundedSig 12 (g.meanS n l m) s) ∧
      ∀ l m, ¬ (m ≤ l ∧ l ≤ L ∧ m ≤ M) → o.clm l m = some 0 ∧ o.slm l m = some 0 := by
  obtain ⟨H, -, ht, -⟩ := mean_coefficients sqrt g L M n hn G
  generalize hy : meanField sqrt g = y at H ht
  have hw := HarmIO.toAscii_eq (HarmIO.Data.toField y.h) true (some y.time) ⟨by simp [HarmIO.Data.toField, ht], by simp⟩
  have e1 : (HarmIO.Data.toField y.h).lmax = L := H.lmax
  have e2 : (HarmIO.Data.toField y.h).mmax = M := H.mmax
  rw [e1, e2] at hw
  obtain ⟨o, r0, r1, r2, r3, r4, -, -⟩ := HarmIO.fromAscii_spec false (lmPairs L M)
    (HarmIO.lineText (HarmIO.Data.toField y.h) (some y.time)) (fun l m => roundSig 12 (y.h.clm l m 0))
    (fun l m => roundSig 12 (y.h.slm l m 0)) (fun _ => some (roundTo 4 y.time))
    (by rintro ⟨l, m⟩ _; exact HarmIO.reads_line (HarmIO.Data.toField y.h) (some y.time) (l, m) _ _ rfl rfl)
    L M (by rintro ⟨l, m⟩ hp; have := (mem_lmPairs _ _ _ _).1 hp; exact ⟨this.2.1, this.2.2⟩)
    ⟨(L, 0), (mem_lmPairs _ _ _ _).2 ⟨by omega, le_rfl, by omega⟩, rfl⟩
    ⟨(L, M), (mem_lmPairs _ _ _ _).2 ⟨G.le, le_rfl, le_rfl⟩, rfl⟩ (L, M) (HarmIO.lmPairs_last _ _ G.le) 0 (by simp)
  refine ⟨_, o, ?_, r0, r1, r2, ?_, ?_⟩
  · unfold writeMean
    have : formOf "ascii".toList = .ok (.ascii, "txt".toList) := by decide
    rw [this]
    simp only [hy, hw]
  · intro l m h1 h2 h3
    have hmem := (mem_lmPairs L M l m).2 ⟨h1, h2, h3⟩
    obtain ⟨c1, c2⟩ := H.coefs l m h2 h3
    rw [if_pos h1] at c1 c2
    refine ⟨_, _, by rw [r3, if_pos hmem], by rw [r4, if_pos hmem], ?_, ?_⟩
    · rw [c1]; exact HarmIO.roundSig_rounded 12 _
    · rw [c2]; exact HarmIO.roundSig_rounded 12 _
  · intro l m h
    have hmem : (l, m) ∉ lmPairs L M := fun hh => h ((mem_lmPairs _ _ _ _).1 hh)
    rw [r3, r4, if_neg hmem, if_neg hmem]
    exact ⟨rfl, rfl⟩

/-! ## gfc files -/

/-- a number as it is printed without a plus sign -/
def litEU (p : ℕ) (x : ℚ) : Lit := { litEC p x with sgn := if x < 0 then .minus else .none }

theorem fmtEU_eq (w p : ℕ) (x : ℚ) : ∃ k : ℕ, fmtEU w p x = List.replicate k ' ' ++ (litEU p x).chars := by
  unfold fmtEU pad
  refine ⟨_, congrArg _ ?_⟩
  unfold Lit.chars litEU litEC
  by_cases h : x < 0 <;> by_cases h' : (sciParts p x).2 < 0 <;> simp [h, h', Sgn.chars, exChars]

theorem litEU_val (p : ℕ) (x : ℚ) : (litEU p x).val = roundSig p x := by
  rw [← litEC_val]
  unfold litEU litEC Lit.val
  by_cases h : x < 0 <;> simp [h, Sgn.val]

/-- a data line says the coefficients and errors of its degree and order -/
theorem gfcLine_says (y : MeanFld ℚ) (l m : ℕ) :
    Says "gfc".toList (gfcLine y (l, m)) (.coef l m (roundSig 12 (y.h.clm l m 0)) (roundSig 12 (y.h.slm l m 0))
      (roundSig 5 (y.eclm l m)) (roundSig 5 (y.eslm l m))) := by
  obtain ⟨k1, e1⟩ := fmtEC_eq 18 12 (y.h.clm l m 0)
  obtain ⟨k2, e2⟩ := fmtEC_eq 18 12 (y.h.slm l m 0)
  obtain ⟨k3, e3⟩ := fmtEU_eq 11 5 (y.eclm l m)
  obtain ⟨k4, e4⟩ := fmtEU_eq 11 5 (y.eslm l m)
  have hpre : "gfc".toList <+: gfcLine y (l, m) := by
    unfold gfcLine
    rw [intercalate_cons]
    exact ⟨_, rfl⟩
  have hw : Words (gfcLine y (l, m)) ("gfc".toList :: (natDigits l).map dchar :: (natDigits m).map dchar ::
      (Tok.dec (litEC 12 (y.h.clm l m 0))).chars :: (Tok.dec (litEC 12 (y.h.slm l m 0))).chars ::
      (Tok.dec (litEU 5 (y.eclm l m))).chars :: (Tok.dec (litEU 5 (y.eslm l m))).chars :: []) := by
    have := words_join [(0, "gfc".toList), (4 - ((natDigits l).map dchar).length, (natDigits l).map dchar),
      (4 - ((natDigits m).map dchar).length, (natDigits m).map dchar), (k1, (litEC 12 (y.h.clm l m 0)).chars),
      (k2, (litEC 12 (y.h.slm l m 0)).chars), (k3 + 1, (litEU 5 (y.eclm l m)).chars), (k4 + 1, (litEU 5 (y.eslm l m)).chars)] (by
        simp only [List.forall_mem_cons]
        refine ⟨by decide, digits_space l, digits_space m, lit_space _, lit_space _, lit_space _, lit_space _, by simp⟩)
    unfold gfcLine fmtD pad
    simp only [e1, e2, e3, e4]
    exact this
  have := Says.coef (flag := "gfc".toList) _ _ _ _ l m _ _ _ _ _ hpre hw (digits_isNat l) (digits_isNat m)
  have hv : ∀ x, (Tok.dec (litEU 5 x)).val = roundSig 5 x := fun x => litEU_val 5 x
  rw [hv, hv] at this
  exact this

/-- no line break in the text -/
def OneLine (s : List Char) : Prop := ∀ c ∈ s, LoveText.isBreak c = false

instance (s : List Char) : Decidable (OneLine s) := by unfold OneLine; infer_instance

theorem oneLine_append (a b : List Char) (ha : OneLine a) (hb : OneLine b) : OneLine (a ++ b) := by
  intro c hc
  rcases List.mem_append.1 hc with h | h
  exacts [ha c h, hb c h]

theorem oneLine_of_clean (s : List Char) (h : Clean s) : OneLine s := fun c hc => (h c hc).1

theorem oneLine_pad (w : ℕ) (s : List Char) (h : OneLine s) : OneLine (padRight w s) :=
  oneLine_append _ _ h (oneLine_of_clean _ (clean_replicate _))

theorem num_digit (w n : ℕ) : ∀ c ∈ num w n, c.isDigit = true := by
  intro c hc
  unfold num at hc
  rcases List.mem_append.1 hc with h | h
  · rw [List.eq_of_mem_replicate h]; decide
  · obtain ⟨d, -, rfl⟩ := List.mem_map.1 h
    exact dchar_isDigit d

theorem oneLine_num (w n : ℕ) : OneLine (num w n) := oneLine_of_clean _ (clean_digits _ (num_digit w n))

theorem oneLine_lit (x : Lit) : OneLine x.chars := by
  intro c hc
  have hd : ∀ d, LoveText.isBreak (dchar d) = false := by decide
  have hs : ∀ s : Sgn, ∀ c ∈ s.chars, LoveText.isBreak c = false := by
    intro s; cases s <;> decide
  simp only [Lit.chars, List.mem_append, List.mem_cons, List.mem_map] at hc
  rcases hc with ((h | ⟨d, -, rfl⟩) | rfl | ⟨d, -, rfl⟩) | hc
  · exact hs _ c h
  · exact hd d
  · decide
  · exact hd d
  · cases hx : x.ex with
    | none => rw [hx] at hc; exact absurd hc (by simp [exChars])
    | some e =>
      obtain ⟨cap, s, d, ds⟩ := e
      rw [hx] at hc
      simp only [exChars, List.mem_cons, List.mem_append, List.mem_map] at hc
      rcases hc with h | h | ⟨d, -, rfl⟩
      · subst h; cases cap <;> decide
      · exact hs _ c h
      · exact hd d

theorem oneLine_fmtEC (w p : ℕ) (x : ℚ) : OneLine (fmtEC w p x) := by
  obtain ⟨k, e⟩ := fmtEC_eq w p x
  rw [e]
  exact oneLine_append _ _ (oneLine_of_clean _ (clean_replicate _)) (oneLine_lit _)

theorem oneLine_fmtEU (w p : ℕ) (x : ℚ) : OneLine (fmtEU w p x) := by
  obtain ⟨k, e⟩ := fmtEU_eq w p x
  rw [e]
  exact oneLine_append _ _ (oneLine_of_clean _ (clean_replicate _)) (oneLine_lit _)

theorem oneLine_join (xs : List (List Char)) (h : ∀ x ∈ xs, OneLine x) : OneLine ([' '].intercalate xs) := by
  induction xs with
  | nil => intro c hc; simp [List.intercalate] at hc
  | cons a xs ih =>
    cases xs with
    | nil => simpa [List.intercalate] using h a (by simp)
    | cons b xs =>
      rw [intercalate_cons]
      refine oneLine_append _ _ (h a (by simp)) ?_
      intro c hc
      rcases List.mem_cons.1 hc with rfl | hc
      · decide
      · exact ih (fun x hx => h x (by simp [hx])) c hc

theorem oneLine_gfc (y : MeanFld ℚ) (p : ℕ × ℕ) : OneLine (gfcLine y p) := by
  apply oneLine_join
  simp only [List.forall_mem_cons]
  refine ⟨by decide, oneLine_of_clean _ (fmtD_clean _ _), oneLine_of_clean _ (fmtD_clean _ _), oneLine_fmtEC _ _ _,
    oneLine_fmtEC _ _ _, ?_, ?_, by simp⟩
  · exact oneLine_append [' '] _ (by decide) (oneLine_fmtEU _ _ _)
  · exact oneLine_append [' '] _ (by decide) (oneLine_fmtEU _ _ _)

theorem headLine_ne (k v w : List Char) (h : ¬ w <+: padRight 30 k) (hl : w.length ≤ 30) : ¬ w <+: headLine (k, v) := by
  intro hp
  apply h
  refine List.prefix_of_prefix_length_le hp (List.prefix_append _ _) ?_
  unfold padRight
  simp
  omega

/-- lines of the header are no data lines -/
theorem header_other (j : Job) : ∀ x ∈ gfcHeader j, ¬ "gfc".toList <+: x ∧ ¬ "GRDOTA".toList <+: x := by
  intro x hx
  unfold gfcHeader attributesOf constants at hx
  simp only [List.mem_append, List.map_append, List.map_cons, List.map_nil, List.mem_cons, List.not_mem_nil,
    or_false] at hx
  rcases hx with (rfl | ((rfl | rfl | rfl | rfl | rfl | rfl) | (rfl | rfl | rfl | rfl))) | (rfl | rfl | rfl)
  · decide
  all_goals first
    | exact ⟨headLine_ne _ _ _ (by decide) (by decide), headLine_ne _ _ _ (by decide) (by decide)⟩
    | decide

theorem header_oneLine (j : Job) (h1 : OneLine j.PROC) (h2 : OneLine j.DREL) (h3 : OneLine j.DSET) : ∀ x ∈ gfcHeader j, OneLine x := by
  intro x hx
  have key : ∀ k v, OneLine k → OneLine v → OneLine (headLine (k, v)) := fun k v hk hv =>
    oneLine_append _ _ (oneLine_pad _ _ hk) hv
  unfold gfcHeader attributesOf constants at hx
  simp only [List.mem_append, List.map_append, List.map_cons, List.map_nil, List.mem_cons, List.not_mem_nil,
    or_false] at hx
  rcases hx with (rfl | ((rfl | rfl | rfl | rfl | rfl | rfl) | (rfl | rfl | rfl | rfl))) | (rfl | rfl | rfl)
  · decide
  · exact key _ _ (by decide) h1
  · exact key _ _ (by decide) h2
  · exact key _ _ (by decide) h3
  · exact key _ _ (by decide) (by decide)
  · exact key _ _ (by decide) (oneLine_num _ _)
  · exact key _ _ (by decide) (oneLine_num _ _)
  · exact key _ _ (by decide) (oneLine_fmtEC _ _ _)
  · exact key _ _ (by decide) (oneLine_fmtEC _ _ _)
  · exact key _ _ (by decide) (by decide)
  · exact key _ _ (by decide) (by decide)
  all_goals decide

/-- C93: the mean file in gfc form.  The text has the header and behind it one line for each degree and order, by order and then by
degree, which gives the mean coefficients with thirteen and the errors with six significant digits -/
theorem gfc_file (root : SpatialIO.Data.Attrs) (j : Job) (sqrt : ℚ → ℚ) (g : Months ℚ) (L M n : ℕ) (hn : 0 < n) (G : g.Ok L M n)
    (h1 : OneLine j.PROC) (h2 : OneLine j.DREL) (h3 : OneLine j.DSET) :
    ∃ (head data : List (List Char)) (C S EC ES : ℕ → ℕ → ℚ),
      writeMean "gfc".toList root j sqrt g = .ok (.text (head ++ data)) ∧ (∀ x ∈ head ++ data, OneLine x) ∧
      headLines "gfc".toList (head ++ data) = head ∧
      List.Forall₂ (fun line p => Says "gfc".toList line (.coef p.1 p.2 (C p.1 p.2) (S p.1 p.2) (EC p.1 p.2) (ES p.1 p.2))) data
        ((List.range (M + 1)).flatMap fun m => (List.range' m (L + 1 - m)).map fun l => (l, m)) ∧
      ∀ l m, m ≤ l → l ≤ L → m ≤ M → RoundedSig 12 (g.meanC n l m) (C l m) ∧ RoundedSig 12 (g.meanS n l m) (S l m) ∧
        RoundedSig 5 (sqrt (average n fun t => g.eclm l m t ^ 2)) (EC l m) ∧
        RoundedSig 5 (sqrt (average n fun t => g.eslm l m t ^ 2)) (ES l m) := by
  obtain ⟨H, he, -⟩ := mean_coefficients sqrt g L M n hn G
  generalize hy : meanField sqrt g = y at H he
  refine ⟨gfcHeader j, (lmPairs L M).map (gfcLine y), fun l m => roundSig 12 (y.h.clm l m 0), fun l m => roundSig 12 (y.h.slm l m 0),
    fun l m => roundSig 5 (y.eclm l m), fun l m => roundSig 5 (y.eslm l m), ?_, ?_, ?_, ?_, ?_⟩
  · unfold writeMean
    have : formOf "gfc".toList = .ok (.gfc, "gfc".toList) := by decide
    rw [this]
    simp only [hy, toGfc, H.lmax, H.mmax]
  · intro x hx
    rcases List.mem_append.1 hx with h | h
    · exact header_oneLine j h1 h2 h3 x h
    · obtain ⟨p, -, rfl⟩ := List.mem_map.1 h
      exact oneLine_gfc y p
  · unfold headLines
    rw [List.filter_append]
    have e1 : (gfcHeader j).filter (fun x => decide (¬ "gfc".toList <+: x ∧ ¬ "GRDOTA".toList <+: x)) = gfcHeader j := by
      rw [List.filter_eq_self]
      exact fun x hx => decide_eq_true (header_other j x hx)
    have e2 : ((lmPairs L M).map (gfcLine y)).filter (fun x => decide (¬ "gfc".toList <+: x ∧ ¬ "GRDOTA".toList <+: x)) = [] := by
      rw [List.filter_eq_nil_iff]
      intro x hx
      obtain ⟨p, -, rfl⟩ := List.mem_map.1 hx
      have : "gfc".toList <+: gfcLine y p := by
        unfold gfcLine
        rw [intercalate_cons]
        exact ⟨_, rfl⟩
      simp only [decide_eq_true_eq, not_and]
      exact fun h => absurd this h
    rw [e1, e2, List.append_nil]
  · have : (List.range (M + 1)).flatMap (fun m => (List.range' m (L + 1 - m)).map fun l => (l, m)) = lmPairs L M := rfl
    rw [this]
    generalize lmPairs L M = ps
    induction ps with
    | nil => exact .nil
    | cons p ps ih => exact .cons (gfcLine_says y p.1 p.2) ih
  · intro l m a b c
    obtain ⟨c1, c2⟩ := H.coefs l m b c
    rw [if_pos a] at c1 c2
    rw [← c1, ← c2, ← (he l m).1, ← (he l m).2]
    exact ⟨HarmIO.roundSig_rounded 12 _, HarmIO.roundSig_rounded 12 _, HarmIO.roundSig_rounded 5 _, HarmIO.roundSig_rounded 5 _⟩

/-- C93: unknown formats are refused -/
theorem unknown_format (MEANFORM : List Char) (root : SpatialIO.Data.Attrs) (j : Job) (sqrt : ℚ → ℚ) (g : Months ℚ)
    (h : MEANFORM ∉ ["ascii", "netCDF4", "HDF5", "gfc"].map String.toList) :
    writeMean MEANFORM root j sqrt g = .error .keyError := by
  simp only [List.map_cons, List.map_nil, List.mem_cons, List.not_mem_nil, or_false, not_or] at h
  unfold writeMean formOf
  rw [if_neg h.1, if_neg h.2.1, if_neg h.2.2.1, if_neg h.2.2.2]

/-! ## The header of a gfc file -/

theorem headLine_param (k v : List Char) (hk : k ≠ [] ∧ (∀ c ∈ k, isSpace c = false) ∧ k.length < 30)
    (hv : v ≠ [] ∧ ∀ c ∈ v.head?, isSpace c = false) : Param (headLine (k, v)) k v := by
  refine ⟨List.replicate (30 - k.length) ' ', rfl, hk.1, hk.2.1, ?_, ?_, hv.1, hv.2⟩
  · intro h
    have := congrArg List.length h
    simp at this
    have := hk.2.2
    omega
  · intro c hc
    rw [List.eq_of_mem_replicate hc]; decide

/-- the printed number has no blanks in front -/
theorem fmtEC_lit (p : ℕ) (x : ℚ) (w : ℕ) (hw : w ≤ (litEC p x).chars.length) : fmtEC w p x = (litEC p x).chars := by
  unfold fmtEC pad
  have e : ((if x < 0 then '-' else '+') :: (natDigits ((sciParts p x).1 / 10 ^ p)).map dchar ++
      '.' :: (lastDigits p (sciParts p x).1).map dchar ++ 'E' :: (if (sciParts p x).2 < 0 then '-' else '+') ::
      ((expDigits (sciParts p x).2.natAbs).1 :: (expDigits (sciParts p x).2.natAbs).2).map dchar) = (litEC p x).chars := by
    unfold Lit.chars litEC
    by_cases h : x < 0 <;> by_cases h' : (sciParts p x).2 < 0 <;> simp [h, h', Sgn.chars, exChars]
  simp only at e ⊢
  rw [e]
  have : w - (litEC p x).chars.length = 0 := by omega
  rw [this]; rfl

theorem num_zero (n : ℕ) : num 0 n = (natDigits n).map dchar := by
  unfold num; simp

/-- C93: the parameters in the header of a mean file in gfc form: maximum degree, gravity constant, radius, kind of the errors and
normalization; there is no tide system and no name of the model.  (Deviation: `harmonics.from_gfc` asks for the tide system) -/
theorem gfc_parameters (j : Job) :
    ∃ d, GraceText.gfcHeader (gfcHeader j) = some d ∧
      (∃ w, d "max_degree".toList = some w ∧ IsNat w j.LMAX) ∧
      (∃ t : Tok, d "earth_gravity_constant".toList = some t.chars ∧ t.val = 398600441500000) ∧
      (∃ t : Tok, d "radius".toList = some t.chars ∧ t.val = 6378136.3) ∧
      d "errors".toList = some "uncalibrated".toList ∧ d "norm".toList = some "fully_normalized".toList ∧
      d "tide_system".toList = none ∧ d "modelname".toList = none := by
  have hgm : fmtEC 16 10 398600441500000 = (litEC 10 398600441500000).chars := fmtEC_lit _ _ _ (by decide +kernel)
  have hr : fmtEC 16 10 6378136.3 = (litEC 10 6378136.3).chars := fmtEC_lit _ _ _ (by decide +kernel)
  have hfil : (gfcHeader j).filter (fun x => parameters.any fun p => p.toList.isPrefixOf x) =
      [headLine ("max_degree".toList, num 0 j.LMAX), headLine ("earth_gravity_constant".toList, fmtEC 16 10 398600441500000),
        headLine ("radius".toList, fmtEC 16 10 6378136.3), headLine ("errors".toList, "uncalibrated".toList),
        headLine ("norm".toList, "fully_normalized".toList)] := by
    have hno : ∀ k v : List Char, (parameters.all fun p => !(p.toList.isPrefixOf (padRight 30 k))) = true →
        (parameters.any fun p => p.toList.isPrefixOf (headLine (k, v))) = false := by
      intro k v h
      rw [List.any_eq_false]
      rw [List.all_eq_true] at h
      intro p hp hh
      have h1 := h p hp
      rw [Bool.not_eq_true', ← Bool.not_eq_true, List.isPrefixOf_iff_prefix] at h1
      rw [List.isPrefixOf_iff_prefix] at hh
      refine headLine_ne k v p.toList h1 ?_ hh
      have : ∀ p ∈ parameters, p.toList.length ≤ 30 := by decide
      exact this p hp
    have hyes : ∀ k v : List Char, (parameters.any fun p => p.toList.isPrefixOf k) = true →
        (parameters.any fun p => p.toList.isPrefixOf (headLine (k, v))) = true := by
      intro k v h
      rw [List.any_eq_true] at h ⊢
      obtain ⟨p, hp, hk⟩ := h
      refine ⟨p, hp, ?_⟩
      rw [List.isPrefixOf_iff_prefix] at hk ⊢
      refine hk.trans ?_
      unfold headLine padRight
      rw [List.append_assoc]
      exact List.prefix_append _ _
    unfold gfcHeader attributesOf constants
    simp only [List.map_cons, List.map_nil, List.cons_append, List.nil_append]
    rw [List.filter_cons_of_neg (by decide), List.filter_cons_of_neg (by rw [hno _ _ (by decide)]; decide),
      List.filter_cons_of_neg (by rw [hno _ _ (by decide)]; decide), List.filter_cons_of_neg (by rw [hno _ _ (by decide)]; decide),
      List.filter_cons_of_neg (by rw [hno _ _ (by decide)]; decide), List.filter_cons_of_pos (by rw [hyes _ _ (by decide)]),
      List.filter_cons_of_neg (by rw [hno _ _ (by decide)]; decide), List.filter_cons_of_pos (by rw [hyes _ _ (by decide)]),
      List.filter_cons_of_pos (by rw [hyes _ _ (by decide)]), List.filter_cons_of_pos (by rw [hyes _ _ (by decide)]),
      List.filter_cons_of_pos (by rw [hyes _ _ (by decide)]), List.filter_cons_of_neg (by decide), List.filter_cons_of_neg (by decide),
      List.filter_cons_of_neg (by decide)]
    rfl
  have hlit : ∀ x : Lit, x.chars ≠ [] ∧ ∀ c ∈ x.chars.head?, isSpace c = false := by
    intro x
    refine ⟨(lit_space x).1, fun c hc => (lit_space x).2 c (List.mem_of_mem_head? hc)⟩
  obtain ⟨d, hd, hv⟩ := gfc_header (gfcHeader j) _ [("max_degree".toList, num 0 j.LMAX),
      ("earth_gravity_constant".toList, fmtEC 16 10 398600441500000), ("radius".toList, fmtEC 16 10 6378136.3),
      ("errors".toList, "uncalibrated".toList), ("norm".toList, "fully_normalized".toList)] hfil (by
    refine .cons (headLine_param _ _ (by decide) ?_) (.cons (headLine_param _ _ (by decide) ?_)
      (.cons (headLine_param _ _ (by decide) ?_) (.cons (headLine_param _ _ (by decide) (by decide))
        (.cons (headLine_param _ _ (by decide) (by decide)) .nil))))
    · rw [num_zero]
      exact ⟨(digits_space j.LMAX).1, fun c hc => (digits_space j.LMAX).2 c (List.mem_of_mem_head? hc)⟩
    · rw [hgm]; exact hlit _
    · rw [hr]; exact hlit _)
  refine ⟨d, hd, ⟨num 0 j.LMAX, ?_, ?_⟩, ⟨.dec (litEC 10 398600441500000), ?_, ?_⟩, ⟨.dec (litEC 10 6378136.3), ?_, ?_⟩,
    ?_, ?_, ?_, ?_⟩
  · rw [hv]
    have : ∀ a b c e f : List Char, ([("max_degree".toList, a), ("earth_gravity_constant".toList, b), ("radius".toList, c),
      ("errors".toList, e), ("norm".toList, f)].filter fun kv => kv.1 = "max_degree".toList) = [("max_degree".toList, a)] := by
      intro a b c e f; rfl
    rw [this]; rfl
  · rw [num_zero]; exact digits_isNat _
  · rw [hv, hgm]; rfl
  · show (litEC 10 398600441500000).val = _
    rw [litEC_val]
    exact HarmIO.roundSig_sig _ _ ⟨3986004415, 5, by norm_num, by norm_num⟩
  · rw [hv, hr]; rfl
  · show (litEC 10 6378136.3).val = _
    rw [litEC_val]
    exact HarmIO.roundSig_sig _ _ ⟨63781363, -1, by norm_num, by norm_num⟩
  all_goals rw [hv]; rfl

/-- C93 (deviation): a mean file in gfc form is never accepted as static field.  Whatever coefficients the external reader finds,
if it takes the parameters from the lines of the header then `harmonics.from_gfc` ends with an exception, since no line has the tide
system -/
theorem gfc_not_readable (root : SpatialIO.Data.Attrs) (j : Job) (sqrt : ℚ → ℚ) (g : Months ℚ)
    (lines : List (List Char)) (hl : writeMean "gfc".toList root j sqrt g = .ok (.text lines))
    (reader : List (List Char) → Option ((ℕ → ℕ → ℚ) × (ℕ → ℕ → ℚ) × (List Char → Option (List Char))))
    (hr : ∀ c s d, reader lines = some (c, s, d) → GraceText.gfcHeader (headLines "gfc".toList lines) = some d) :
    ∃ e, fromGfc reader lines = .error e := by
  have hlines : headLines "gfc".toList lines = gfcHeader j := by
    have : lines = gfcHeader j ++ (lmPairs (meanField sqrt g).h.lmax (meanField sqrt g).h.mmax).map (gfcLine (meanField sqrt g)) := by
      unfold writeMean at hl
      rw [show formOf "gfc".toList = .ok (.gfc, "gfc".toList) by decide] at hl
      simp only [Except.ok.injEq, MeanFile.text.injEq] at hl
      rw [← hl]; rfl
    rw [this]
    unfold headLines
    rw [List.filter_append]
    have e1 : (gfcHeader j).filter (fun x => decide (¬ "gfc".toList <+: x ∧ ¬ "GRDOTA".toList <+: x)) = gfcHeader j := by
      rw [List.filter_eq_self]
      exact fun x hx => decide_eq_true (header_other j x hx)
    rw [e1]
    conv_rhs => rw [← List.append_nil (gfcHeader j)]
    congr 1
    rw [List.filter_eq_nil_iff]
    intro x hx
    obtain ⟨p, -, rfl⟩ := List.mem_map.1 hx
    have : "gfc".toList <+: gfcLine (meanField sqrt g) p := by
      unfold gfcLine
      rw [intercalate_cons]
      exact ⟨_, rfl⟩
    simp only [decide_eq_true_eq, not_and]
    exact fun h => absurd this h
  rw [hlines] at hr
  unfold fromGfc
  cases h : reader lines with
  | none => exact ⟨_, rfl⟩
  | some x =>
    obtain ⟨c, s, d⟩ := x
    obtain ⟨d', hd', -, -, -, -, -, ht, -⟩ := gfc_parameters j
    rw [hr c s d h] at hd'
    obtain rfl := Option.some.inj hd'
    simp only [ht]
    refine ⟨.keyError, ?_⟩
    cases d "max_degree".toList <;> cases d "earth_gravity_constant".toList <;> cases d "radius".toList <;> rfl

/-! ## Names -/

/-- C93: for months of one product with the same processing the default names of mean files differ when maximum degree or order,
first or last month, or the suffix differ -/
theorem meanName_injective (j j' : Job) (h1 : j.PROC = j'.PROC) (h2 : j.DREL = j'.DREL) (h3 : j.DSET = j'.DSET) (title s s' : List Char)
    (h : meanName j title s = meanName j' title s') :
    j.LMAX = j'.LMAX ∧ j.order = j'.order ∧ j.START = j'.START ∧ j.END = j'.END ∧ s = s' := by
  have inj : ∀ w a b, num w a = num w b → a = b := fun w a b e => Maps.num_inj w a b e
  unfold meanName at h
  rw [h1, h2, h3] at h
  simp only [List.append_assoc, List.cons_append, List.append_cancel_left_eq, List.cons.injEq, true_and] at h
  have ordOk : ∀ (q : Job) (w : List Char), ∀ c z, (if q.order ≠ q.LMAX then 'M' :: num 0 q.order else []) ++ '_' :: w =
      c :: z → c.isDigit = false := by
    intro q w c z hz
    by_cases ho : q.order ≠ q.LMAX
    · rw [if_pos ho, List.cons_append, List.cons.injEq] at hz
      rw [← hz.1]; decide
    · rw [if_neg ho, List.nil_append, List.cons.injEq] at hz
      rw [← hz.1]; decide
  have sep : ∀ (d : Char) (w : List Char), d.isDigit = false → ∀ c z, d :: w = c :: z → c.isDigit = false := by
    intro d w hd c z hz
    rw [List.cons.injEq] at hz
    rw [← hz.1]; exact hd
  obtain ⟨eL, h⟩ := SpatialError.span_digits _ _ _ _ (num_digit 0 _) (num_digit 0 _) (ordOk j _) (ordOk j' _) h
  have eL := inj _ _ _ eL
  have key : j.order = j'.order ∧ num 3 j.START ++ '-' :: (num 3 j.END ++ '.' :: s) =
      num 3 j'.START ++ '-' :: (num 3 j'.END ++ '.' :: s') := by
    by_cases ho : j.order ≠ j.LMAX <;> by_cases ho' : j'.order ≠ j'.LMAX
    · rw [if_pos ho, if_pos ho', List.cons_append, List.cons_append, List.cons.injEq] at h
      obtain ⟨e1, e2⟩ := SpatialError.span_digits _ _ _ _ (num_digit 0 _) (num_digit 0 _) (sep '_' _ (by decide))
        (sep '_' _ (by decide)) h.2
      exact ⟨inj _ _ _ e1, (List.cons.inj e2).2⟩
    · rw [if_pos ho, if_neg ho', List.cons_append, List.nil_append] at h
      exact absurd (List.cons.inj h).1 (by decide)
    · rw [if_neg ho, if_pos ho', List.cons_append, List.nil_append] at h
      exact absurd (List.cons.inj h).1 (by decide)
    · rw [if_neg ho, if_neg ho', List.nil_append, List.nil_append] at h
      push Not at ho ho'
      exact ⟨by rw [ho, ho', eL], (List.cons.inj h).2⟩
  obtain ⟨eM, h⟩ := key
  obtain ⟨e1, e2⟩ := SpatialError.span_digits _ _ _ _ (num_digit 3 _) (num_digit 3 _) (sep '-' _ (by decide)) (sep '-' _ (by decide)) h
  obtain ⟨e3, e4⟩ := SpatialError.span_digits _ _ _ _ (num_digit 3 _) (num_digit 3 _) (sep '.' _ (by decide)) (sep '.' _ (by decide))
    (List.cons.inj e2).2
  exact ⟨eL, eM, inj _ _ _ e1, inj _ _ _ e3, (List.cons.inj e4).2⟩

/-! ## A concrete run -/

/-- two months up to degree 2 -/
def exMonths : Months ℚ where
  field := { lmax := 2, mmax := 2, nt := some 2, clm := fun l m t => if l = 2 ∧ m = 1 then 1 + t else 0, slm := fun _ _ _ => 0
             time := [2004.0, 2004.5], month := [25, 31] }
  eclm := fun _ _ t => if t = 0 then 0.3 else 0.4
  eslm := fun _ _ _ => 0

theorem exMonths_ok : exMonths.Ok 2 2 2 := ⟨rfl, rfl, rfl, ⟨rfl, rfl⟩, le_rfl⟩

def exJob : Job := ⟨['C', 'S', 'R'], ['R', 'L', '0', '6'], ['G', 'S', 'M'], 2, 0, 25, 31⟩

example : exMonths.meanC 2 2 1 = 3 / 2 := by simp [Months.meanC, average, exMonths, Finset.sum_range_succ]; norm_num

example := gfc_file [] exJob (fun x => x) exMonths 2 2 2 (by decide) exMonths_ok (by decide) (by decide) (by decide)

example : meanName exJob [] ['n', 'c'] = "CSR_RL06_GSM_MEAN_CLM_L2_025-031.nc".toList := by decide

example : gfcLine (meanField (fun x => x) exMonths) (2, 1) =
    "gfc    2    1 +1.500000000000E+00 +0.000000000000E+00  1.25000E-01  0.00000E+00".toList := by decide +kernel

example : headLine ("radius".toList, fmtEC 16 10 6378136.3) = "radius                        +6.3781363000E+06".toList := by
  decide +kernel

/-- a reader whose header has a tide system gives an object -/
example : ∃ y, fromGfc (fun _ => some (fun _ _ => 0, fun _ _ => 0, fun _ => some ['1'])) [] = .ok y := ⟨_, rfl⟩

end Verif.MeanField
