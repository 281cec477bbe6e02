import Verif.GIA.Props

/-!
# C77: citations, wrong degrees, repeated headers, output names
-/
namespace Verif.GIA
open Verif.SLR

/-- authors and year of each model, as documented -/
def authors : Kind → Option String
  | .ij05 => some "Ivins_et_al._(2013)" | .w12a => some "Whitehouse_et_al._(2012)"
  | .sm09 => some "Simpson_et_al._(2009)" | .ice6g => some "Peltier_et_al._(2015)"
  | .ice6gD => some "Peltier_et_al._(2018)" | .wu10 => some "Wu_et_al._(2010)" | .caron => some "Caron_et_al._(2018)"
  | .aw13ice6g | .aw13ij05 => some "A_et_al._(2013)" | .other => none

/-- **C77.** The citation returned with the coefficients is that of the authors of the model -/
theorem gia_citation (k : Kind) (file : Option File) (LMAX MMAX : Option ℕ) (o : Out)
    (h : readGIA k file LMAX MMAX = some o) : o.citation = authors k := by
  unfold readGIA at h
  simp only at h
  split_ifs at h with hk
  · rw [← Option.some_inj.mp h, hk]; rfl
  · simp only [Option.bind_eq_bind, Option.bind_eq_some_iff] at h
    obtain ⟨f, -, t, -, n, -, h⟩ := h
    rw [← Option.some_inj.mp h]
    cases k <;> rfl

/-- **C77.** A negative degree in a table is not refused: its coefficients go to the degree counted from the end -/
theorem negative_degree (n m : ℕ) (d d' : Fin 10) (ds ds' : List (Fin 10)) (s' : Sgn) (tc ts : Tok) (rest : List Tok)
    (f : File) (line : Line) (hf : f.lines = [line])
    (hn : Num (dToE line) (Tok.int .minus d ds none :: Tok.int s' d' ds' none :: tc :: ts :: rest))
    (hl : Sgn.minus.val * decimal (d :: ds) = -(n : ℤ)) (hm : s'.val * decimal (d' :: ds') = (m : ℤ))
    (k : Kind) (hk : k = .w12a ∨ k = .sm09 ∨ k = .aw13ice6g ∨ k = .aw13ij05) (L : ℕ) (hL : 0 < L) (h1 : 1 ≤ n)
    (hmL : m ≤ L) (name : List Char) (hname : title k f.name = some name) :
    (n ≤ L + 1 → ∃ o, readGIA k (some f) (some L) none = some o ∧ ∀ a b,
      o.tab.c a b = (if a = L + 1 - n ∧ b = m then tc.val else 0) ∧
      o.tab.s a b = (if a = L + 1 - n ∧ b = m then ts.val else 0)) ∧
    (L + 1 < n → readGIA k (some f) (some L) none = none) := by
  have hdeg : degree k (some L) = L := by
    cases L with
    | zero => omega
    | succ L => rfl
  have hne : k ≠ .other := by rcases hk with rfl | rfl | rfl | rfl <;> decide
  have hi := pyInt_tok .minus d ds
  have hi' := pyInt_tok s' d' ds'
  rw [hl] at hi
  rw [hm] at hi'
  have hle : (-(n : ℤ) ≤ (L : ℤ) ∧ (m : ℤ) ≤ (L : ℤ)) := by omega
  have hline : ∀ t, coefLine L 1 t line = (idx L (-(n : ℤ))).bind fun a => some (putS (putC t a m (tc.val * 1)) a m
      (ts.val * 1)) := by
    intro t
    unfold coefLine
    rw [rxAll_num _ _ hn]
    simp only [List.map_cons, reduceCtorEq, if_false, List.getElem?_cons_zero, List.getElem?_cons_succ, Option.bind_some,
      hi, hi', pyFloat_tok, Option.bind_eq_bind, if_pos hle, idx_nat L m hmL]
  have hco : coefficients k L f = coefLine L 1 zeroTab line := by
    have : readTable L 1 zeroTab f.lines = coefLine L 1 zeroTab line := by
      unfold readTable
      rw [hf, List.foldlM_cons]
      simp
    rcases hk with rfl | rfl | rfl | rfl <;> exact this
  constructor
  · intro h2
    have hix : idx L (-(n : ℤ)) = some (L + 1 - n) := by
      unfold idx
      rw [if_neg (by omega), if_pos (by omega)]
      congr 1
      omega
    rw [hline, hix, Option.bind_some] at hco
    refine ⟨_, by
      unfold readGIA
      simp only [hdeg, if_neg hne, Option.bind_eq_bind, Option.bind_some, hco, hname]
      rfl, fun a b => ?_⟩
    simp [putC, putS, zeroTab]
  · intro h2
    have hix : idx L (-(n : ℤ)) = none := by
      unfold idx
      rw [if_neg (by omega), if_neg (by omega)]
    rw [hline, hix, Option.bind_none] at hco
    unfold readGIA
    simp [hdeg, hne, hco]

theorem afterHeader_twice (h : Line) (a b c : List Line) (x y : Line) (hx : h <+: x) (hy : h <+: y) :
    afterHeader h (a ++ x :: (b ++ y :: c)) = none := by
  unfold afterHeader
  have mem : ∀ i : ℕ, i < (a ++ x :: (b ++ y :: c)).length → h <+: (a ++ x :: (b ++ y :: c)).getD i [] →
      i ∈ (List.range (a ++ x :: (b ++ y :: c)).length).filter
        (fun i => h.isPrefixOf ((a ++ x :: (b ++ y :: c)).getD i [])) := by
    intro i hi hp
    rw [List.mem_filter, List.mem_range]
    exact ⟨hi, List.isPrefixOf_iff_prefix.mpr hp⟩
  have h1 := mem a.length (by simp) (by rw [List.getD_eq_getElem?_getD, List.getElem?_append_right (le_refl _)]; simpa using hx)
  have h2 := mem (a.length + 1 + b.length) (by simp; omega) (by
    rw [List.getD_eq_getElem?_getD, List.getElem?_append_right (by omega),
      show a.length + 1 + b.length - a.length = b.length + 1 from by omega, List.getElem?_cons_succ,
      List.getElem?_append_right (le_refl _)]
    simpa using hy)
  generalize (List.range (a ++ x :: (b ++ y :: c)).length).filter
        (fun i => h.isPrefixOf ((a ++ x :: (b ++ y :: c)).getD i [])) = l at h1 h2
  match l, h1, h2 with
  | [], h1, _ => simp at h1
  | [i], h1, h2 =>
    rw [List.mem_singleton] at h1 h2
    omega
  | _ :: _ :: _, _, _ => rfl

/-- **C77.** An ICE-6G_D file in which a header line occurs twice is refused -/
theorem ice6gD_repeated (f : File) (LMAX MMAX : Option ℕ) (a b c : List Line) (x y : Line)
    (hf : f.lines = a ++ x :: (b ++ y :: c))
    (h : ("GRACE Approximation for degrees 0 to 2".toList <+: x ∧ "GRACE Approximation for degrees 0 to 2".toList <+: y) ∨
      ("GRACE Approximation/Absolute Sea-level Values for degrees > 2".toList <+: x ∧
        "GRACE Approximation/Absolute Sea-level Values for degrees > 2".toList <+: y)) :
    readGIA .ice6gD (some f) LMAX MMAX = none := by
  have : coefficients .ice6gD (degree .ice6gD LMAX) f = none := by
    unfold coefficients readD
    rcases h with ⟨h1, h2⟩ | ⟨h1, h2⟩
    · rw [hf, afterHeader_twice head1 a b c x y h1 h2]; rfl
    · rw [hf, afterHeader_twice head2 a b c x y h1 h2]
      cases afterHeader head1 (a ++ x :: (b ++ y :: c)) <;> rfl
  unfold readGIA
  simp [this]

/-- **C77.** The name of the written file: title and degree of truncation -/
theorem outName_spec (title : List Char) (L : ℕ) (suffix : String) :
    outName title L suffix = ("stokes_".toList ++ title ++ "_L".toList) ++ Nat.toDigits 10 L ++ ('.' :: suffix.toList) := by
  unfold outName
  simp [toString, Nat.repr]

/-- the end of a name may be followed by one line break, as `$` allows -/
example : title .aw13ij05 "stokes.R2_x\n".toList = some "AW13_IJ05_R2_x".toList := by decide +kernel
example : title .aw13ij05 "stokes.R2_x\n\n".toList = none := by decide +kernel
example : String.ofList (outName "ICE6G_x".toList 60 "nc") = "stokes_ICE6G_x_L60.nc" := by decide +kernel
example : (readGIA .w12a (some ⟨"grate_B.clm".toList, ["-1 1 5 4".toList], none, none⟩) (some 3) none).map
    (fun o => (o.tab.c 3 1, o.tab.s 3 1, o.citation)) = some (5, 4, some "Whitehouse_et_al._(2012)") := by decide +kernel
example : Num "-1 1 5 4".toList [.int .minus 1 [] none, .int .none 1 [] none, .int .none 5 [] none, .int .none 4 [] none] :=
  Num.num (.int .minus 1 [] none) (Or.inr ⟨' ', _, rfl, rfl⟩) (Num.blank ' ' rfl
      (Num.num (tok1 1) (Or.inr ⟨' ', _, rfl, rfl⟩) (Num.blank ' ' rfl
      (Num.num (tok1 5) (Or.inr ⟨' ', _, rfl, rfl⟩) (Num.blank ' ' rfl
      (Num.num (tok1 4) (Or.inl rfl) Num.nil))))))

end Verif.GIA
