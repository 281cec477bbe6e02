import Verif.GIA.Lemmas
import Verif.GIA.Titles

/-!
# C77: glacial isostatic adjustment models

`readGIA k file LMAX MMAX` models `read_GIA_model(input_file, GIA=k, LMAX=..., MMAX=...)`, `fromGIA` models
`gia(lmax=...).from_GIA(...)`.  The formats of the files are specified in Spec.lean.
-/
namespace Verif.GIA
open Verif.SLR

/-! ## Specification -/

/-- an ICE-6G_D file: a part after the first header with six entries (lines without numbers may take a place), anything, the
second header, and the table of the higher degrees to the end of the file -/
def StatesD (ls : List Line) (es : List Entry) : Prop :=
  ∃ pre h1 six mid h2 rest es1 es2, ls = pre ++ h1 :: (six ++ (mid ++ h2 :: rest)) ∧ six.length = 6 ∧
    "GRACE Approximation for degrees 0 to 2".toList <+: h1 ∧
    "GRACE Approximation/Absolute Sea-level Values for degrees > 2".toList <+: h2 ∧
    (∀ y ∈ pre ++ six ++ mid ++ rest, ¬ "GRACE Approximation".toList <+: y) ∧
    Table six es1 ∧ Table rest es2 ∧ es = es1 ++ es2

/-- the file of the given type holds the coefficients `C`, `S` up to degree `N` (dimensionless, geodesy normalization) -/
def Holds (k : Kind) (f : File) (N : ℕ) (C S : ℕ → ℕ → ℚ) : Prop :=
  match k with
  | .ij05 => ∃ es, Table f.lines es ∧ ∀ l m, C l m = lastC es l m * 1e-11 ∧ S l m = lastS es l m * 1e-11
  | .w12a | .sm09 | .aw13ice6g | .aw13ij05 => ∃ es, Table f.lines es ∧ ∀ l m, C l m = lastC es l m ∧ S l m = lastS es l m
  | .ice6g => StatesIce f.lines N C S ∧ ∀ l m, l < m → C l m = 0 ∧ S l m = 0
  | .ice6gD => ∃ es, StatesD f.lines es ∧ ∀ l m, C l m = lastC es l m ∧ S l m = lastS es l m
  | .wu10 => ∃ data : List ℚ, f.column = some data ∧ (N + 1) ^ 2 - 1 ≤ data.length ∧ ∀ l m : ℕ,
      C l m = (if 1 ≤ l ∧ m ≤ l then data.getD (wuC l m) 0 / 6.371e9 else 0) ∧
      S l m = (if 1 ≤ m ∧ m ≤ l then data.getD (wuS l m) 0 / 6.371e9 else 0)
  | .caron => ∃ rows : List (ℤ × ℤ × ℚ), f.triples = some rows ∧ (∀ r ∈ rows, 0 ≤ r.1 ∧ |r.2.1| ≤ r.1) ∧ ∀ l m : ℕ,
      C l m = lastRow rows l m ∧ S l m = if m = 0 then 0 else lastRow rows l (-(m : ℤ))
  | .other => False

/-- the degree asked for, or that of the model: documented default -/
def wanted (LMAX : Option ℕ) (dflt : ℕ) : ℕ := if LMAX = none ∨ LMAX = some 0 then dflt else LMAX.getD 0

/-! ## Theorems -/

/-- **C77.** Every coefficient the file holds up to the degree of truncation is returned at its degree and order, in
units of the geodesy normalization, and all other cells are zero; the title is that of the file name -/
theorem gia_coefficients (k : Kind) (f : File) (N : ℕ) (C S : ℕ → ℕ → ℚ) (h : Holds k f N C S) (name : List Char)
    (hname : title k f.name = some name) (LMAX MMAX : Option ℕ) (hL : degree k LMAX ≤ N) :
    ∃ o, readGIA k (some f) LMAX MMAX = some o ∧ o.title = some name ∧
      ∀ l m, o.tab.c l m = (if l ≤ degree k LMAX ∧ m ≤ degree k LMAX then C l m else 0) ∧
        o.tab.s l m = (if l ≤ degree k LMAX ∧ m ≤ degree k LMAX then S l m else 0) := by
  generalize hd : degree k LMAX = L at hL
  have hne : k ≠ .other := by rintro rfl; exact h
  have key : ∃ t, coefficients k L f = some t ∧ ∀ l m,
      t.c l m = (if l ≤ L ∧ m ≤ L then C l m else 0) ∧ t.s l m = (if l ≤ L ∧ m ≤ L then S l m else 0) := by
    have tab : ∀ sc es, Table f.lines es → (∀ l m, C l m = lastC es l m * sc ∧ S l m = lastS es l m * sc) →
        ∃ t, readTable L sc zeroTab f.lines = some t ∧ ∀ l m,
          t.c l m = (if l ≤ L ∧ m ≤ L then C l m else 0) ∧ t.s l m = (if l ≤ L ∧ m ≤ L then S l m else 0) := by
      intro sc es h1 h2
      obtain ⟨t, ht, hv⟩ := readTable_states L sc f.lines es h1
      refine ⟨t, ht, fun l m => ?_⟩
      rw [(h2 l m).1, (h2 l m).2]
      exact hv l m
    have one : ∀ es, (∀ l m, C l m = lastC es l m ∧ S l m = lastS es l m) →
        ∀ l m, C l m = lastC es l m * 1 ∧ S l m = lastS es l m * 1 := by
      intro es h1 l m; rw [mul_one, mul_one]; exact h1 l m
    cases k with
    | ij05 => obtain ⟨es, h1, h2⟩ := h; exact tab _ es h1 h2
    | w12a => obtain ⟨es, h1, h2⟩ := h; exact tab _ es h1 (one es h2)
    | sm09 => obtain ⟨es, h1, h2⟩ := h; exact tab _ es h1 (one es h2)
    | aw13ice6g => obtain ⟨es, h1, h2⟩ := h; exact tab _ es h1 (one es h2)
    | aw13ij05 => obtain ⟨es, h1, h2⟩ := h; exact tab _ es h1 (one es h2)
    | ice6g =>
      obtain ⟨h1, h2⟩ := h
      refine ⟨_, readICE6G_states f.lines N C S h1 L hL, fun l m => ?_⟩
      simp only [partTab]
      by_cases hlm : l < m
      · rw [(h2 l m hlm).1, (h2 l m hlm).2]; simp
      · by_cases hl : l ≤ L
        · rw [if_pos (by omega), if_pos (by omega), if_pos (by omega), if_pos (by omega)]; exact ⟨rfl, rfl⟩
        · rw [if_neg (by omega), if_neg (by omega), if_neg (by omega), if_neg (by omega)]; exact ⟨rfl, rfl⟩
    | wu10 =>
      obtain ⟨data, h1, h2, h3⟩ := h
      have hlen : (L + 1) ^ 2 - 1 ≤ data.length := by
        have : (L + 1) ^ 2 ≤ (N + 1) ^ 2 := Nat.pow_le_pow_left (by omega) 2
        omega
      refine ⟨_, by simp only [coefficients]; rw [h1, Option.bind_some, readWu_eq, if_pos hlen], fun l m => ?_⟩
      rw [(h3 l m).1, (h3 l m).2]
      simp only [partTab, wuTabC, wuTabS]
      constructor <;> split_ifs <;> first | rfl | (exfalso; omega)
    | caron =>
      obtain ⟨rows, h1, h2, h3⟩ := h
      obtain ⟨t, ht, hv⟩ := caron_fold L rows h2
      refine ⟨t, by simp only [coefficients]; rw [h1, Option.bind_some, ht], fun l m => ?_⟩
      rw [(h3 l m).1, (h3 l m).2, (hv l m).1, (hv l m).2]
      refine ⟨rfl, ?_⟩
      split_ifs with a b c <;> first | rfl | omega
    | ice6gD =>
      obtain ⟨es, ⟨pre, x1, six, mid, x2, rest, es1, es2, hls, h6, hx1, hx2, hno, ht1, ht2, rfl⟩, hv⟩ := h
      have p1 : "GRACE Approximation".toList <+: head1 := ⟨" for degrees 0 to 2".toList, by decide⟩
      have p2 : "GRACE Approximation".toList <+: head2 := ⟨"/Absolute Sea-level Values for degrees > 2".toList, by decide⟩
      have n1 : ∀ y ∈ pre ++ six ++ mid ++ rest, ¬ head1 <+: y := fun y hy hp => hno y hy (p1.trans hp)
      have n2 : ∀ y ∈ pre ++ six ++ mid ++ rest, ¬ head2 <+: y := fun y hy hp => hno y hy (p2.trans hp)
      have n12 : ¬ head1 <+: x2 := by
        intro hp
        have := List.prefix_of_prefix_length_le hp hx2 (by decide)
        revert this; decide
      have n21 : ¬ head2 <+: x1 := by
        intro hp
        have := List.prefix_of_prefix_length_le hx1 hp (by decide)
        revert this; decide
      have a1 : afterHeader head1 f.lines = some (pre.length + 1) := by
        rw [hls]
        apply afterHeader_split _ _ _ _ hx1
        · intro y hy; exact n1 y (by simp [hy])
        · intro y hy
          simp only [List.mem_append, List.mem_cons] at hy
          rcases hy with hy | hy | rfl | hy
          · exact n1 y (by simp [hy])
          · exact n1 y (by simp [hy])
          · exact n12
          · exact n1 y (by simp [hy])
      have a2 : afterHeader head2 f.lines = some ((pre ++ x1 :: (six ++ mid)).length + 1) := by
        rw [hls, show pre ++ x1 :: (six ++ (mid ++ x2 :: rest)) = (pre ++ x1 :: (six ++ mid)) ++ x2 :: rest from by simp]
        apply afterHeader_split _ _ _ _ hx2
        · intro y hy
          simp only [List.mem_append, List.mem_cons] at hy
          rcases hy with hy | rfl | hy | hy
          · exact n2 y (by simp [hy])
          · exact n21
          · exact n2 y (by simp [hy])
          · exact n2 y (by simp [hy])
        · intro y hy; exact n2 y (by simp [hy])
      have d1 : (f.lines.drop (pre.length + 1)).take 6 = six := by
        rw [hls, show pre ++ x1 :: (six ++ (mid ++ x2 :: rest)) = (pre ++ [x1]) ++ (six ++ (mid ++ x2 :: rest)) from by simp,
          show pre.length + 1 = (pre ++ [x1]).length from by simp, List.drop_left, ← h6, List.take_left]
      have d2 : f.lines.drop ((pre ++ x1 :: (six ++ mid)).length + 1) = rest := by
        rw [hls, show pre ++ x1 :: (six ++ (mid ++ x2 :: rest)) = (pre ++ x1 :: (six ++ mid) ++ [x2]) ++ rest from by simp,
          show (pre ++ x1 :: (six ++ mid)).length + 1 = (pre ++ x1 :: (six ++ mid) ++ [x2]).length from by simp; omega,
          List.drop_left]
      have hlen : pre.length + 1 + ((2 ^ 2 + 3 * 2) / 2 + 1) ≤ f.lines.length := by
        rw [hls]; simp; omega
      refine ⟨(es1 ++ es2).foldl (entryStep L 1) zeroTab, ?_, fun l m => ?_⟩
      · simp only [coefficients, scaleOf]
        unfold readD
        simp only [a1, a2, Option.bind_eq_bind, Option.bind_some, if_pos hlen]
        rw [show (2 ^ 2 + 3 * 2) / 2 + 1 = 6 from by decide, d1, d2, readTable_fold L 1 six es1 ht1, Option.bind_some,
          readTable_fold L 1 rest es2 ht2, List.foldl_append]
      · rw [(hv l m).1, (hv l m).2]
        have := fold_entries L 1 (es1 ++ es2) l m
        simpa only [mul_one] using this
    | other => exact absurd rfl hne
  obtain ⟨t, ht, hv⟩ := key
  refine ⟨⟨t, L + 1, orders L MMAX, some name, citation k⟩, ?_, rfl, hv⟩
  unfold readGIA
  simp only [hd, if_neg hne, Option.bind_eq_bind, Option.bind_some, ht, hname]

/-- **C77.** Reading to a smaller degree gives the coefficients of reading to a larger one -/
theorem gia_truncation (k : Kind) (f : File) (N : ℕ) (C S : ℕ → ℕ → ℚ) (h : Holds k f N C S) (name : List Char)
    (hname : title k f.name = some name) (LMAX LMAX' MMAX MMAX' : Option ℕ) (hL : degree k LMAX ≤ degree k LMAX')
    (hN : degree k LMAX' ≤ N) :
    ∃ o o', readGIA k (some f) LMAX MMAX = some o ∧ readGIA k (some f) LMAX' MMAX' = some o' ∧
      ∀ l m, l ≤ degree k LMAX → m ≤ degree k LMAX → o.tab.c l m = o'.tab.c l m ∧ o.tab.s l m = o'.tab.s l m := by
  obtain ⟨o, h1, -, h2⟩ := gia_coefficients k f N C S h name hname LMAX MMAX (by omega)
  obtain ⟨o', h1', -, h2'⟩ := gia_coefficients k f N C S h name hname LMAX' MMAX' hN
  refine ⟨o, o', h1, h1', fun l m hl hm => ?_⟩
  rw [(h2 l m).1, (h2 l m).2, (h2' l m).1, (h2' l m).2, if_pos (by omega), if_pos (by omega),
    if_pos (by omega), if_pos (by omega)]
  exact ⟨rfl, rfl⟩

/-- **C77.** The sizes of the returned tables: degrees to the one asked for, or to that of the model if none (or zero) is
asked for, and orders to MMAX -/
theorem gia_sizes (k : Kind) (file : Option File) (LMAX MMAX : Option ℕ) (o : Out)
    (h : readGIA k file LMAX MMAX = some o) :
    o.nl = wanted LMAX (match k with
      | .ij05 | .w12a | .sm09 => 120 | .ice6g | .wu10 | .other => 60 | .caron => 89 | .aw13ice6g => 100
      | .ice6gD | .aw13ij05 => 256) + 1 ∧
    o.nm = match MMAX with
      | none => o.nl
      | some m => min (m + 1) o.nl := by
  have hd : degree k LMAX = wanted LMAX (match k with
      | .ij05 | .w12a | .sm09 => 120 | .ice6g | .wu10 | .other => 60 | .caron => 89 | .aw13ice6g => 100
      | .ice6gD | .aw13ij05 => 256) := by
    unfold degree wanted
    rcases LMAX with _ | _ | n
    · simp only [true_or, if_true]; cases k <;> rfl
    · simp only [or_true, if_true]; cases k <;> rfl
    · simp
  have : o.nl = degree k LMAX + 1 ∧ o.nm = orders (degree k LMAX) MMAX := by
    unfold readGIA at h
    simp only at h
    split_ifs at h
    · rw [← Option.some_inj.mp h]; exact ⟨rfl, rfl⟩
    · simp only [Option.bind_eq_bind, Option.bind_eq_some_iff] at h
      obtain ⟨f, -, t, -, n, -, h⟩ := h
      rw [← Option.some_inj.mp h]; exact ⟨rfl, rfl⟩
  rw [this.1, this.2, hd]
  refine ⟨rfl, ?_⟩
  cases MMAX <;> rfl

/-- **C77.** A type that is not known, or None, gives zeros to degree 60 or the one asked for, without any title and
without reading a file -/
theorem gia_unknown (file : Option File) (LMAX MMAX : Option ℕ) :
    ∃ o, readGIA .other file LMAX MMAX = some o ∧ o.nl = wanted LMAX 60 + 1 ∧ o.title = none ∧ o.citation = none ∧
      ∀ l m, o.tab.c l m = 0 ∧ o.tab.s l m = 0 := by
  refine ⟨_, rfl, ?_, rfl, rfl, fun l m => ⟨rfl, rfl⟩⟩
  exact (gia_sizes .other file LMAX MMAX _ rfl).1

/-- **C77.** A known type needs its file, and a file name from which its title is made -/
theorem gia_raises (k : Kind) (hk : k ≠ .other) (LMAX MMAX : Option ℕ) :
    readGIA k none LMAX MMAX = none ∧ ∀ f : File, title k f.name = none → readGIA k (some f) LMAX MMAX = none := by
  constructor
  · unfold readGIA; simp [hk]
  · intro f hf
    unfold readGIA
    simp only [if_neg hk, Option.bind_eq_bind, Option.bind_some, hf, Option.bind_none]
    cases coefficients k (degree k LMAX) f <;> rfl

/-- **C77.** Titles of the Ivins models -/
theorem title_ij05 (c : Char) (x tail : List Char) (hc : c ≠ '\n') (hx : '\n' ∉ x) (hL : 'L' ∉ x) (ht : 'S' ∉ tail) :
    title .ij05 ("Stokes".toList ++ c :: ("R2_".toList ++ x ++ "_L120".toList ++ tail)) =
      some ("IJ05_R2_".toList ++ x) := by
  unfold title; simp only [find_ij05 c x tail hc hx hL ht]

/-- **C77.** Titles of the ICE-6G models -/
theorem title_ice6g (x : List Char) (hx : '\n' ∉ x) :
    title .ice6g ("Stokes_G_Rot_60_I6_A_".toList ++ x) = some ("ICE6G_".toList ++ x) := by
  unfold title; simp only [find_ice6g x hx]

/-- **C77.** Titles of the Whitehouse models: best, lower and upper bound -/
theorem title_w12a (c : Char) (hc : c ≠ '\n') :
    title .w12a ("grate_B".toList ++ c :: "clm".toList) = some "W12a_Best".toList ∧
    title .w12a ("grate_L".toList ++ c :: "clm".toList) = some "W12a_Lower".toList ∧
    title .w12a ("grate_U".toList ++ c :: "clm".toList) = some "W12a_Upper".toList := by
  have h1 := find_w12a 'B' c (by simp) hc
  have h2 := find_w12a 'L' c (by simp) hc
  have h3 := find_w12a 'U' c (by simp) hc
  refine ⟨?_, ?_, ?_⟩ <;> unfold title
  · rw [show "grate_B".toList ++ c :: "clm".toList = "grate_".toList ++ 'B' :: c :: "clm".toList from by simp, h1]; rfl
  · rw [show "grate_L".toList ++ c :: "clm".toList = "grate_".toList ++ 'L' :: c :: "clm".toList from by simp, h2]; rfl
  · rw [show "grate_U".toList ++ c :: "clm".toList = "grate_".toList ++ 'U' :: c :: "clm".toList from by simp, h3]; rfl

/-- **C77.** Titles of the Simpson/Milne models: thickness of the lithosphere, upper and lower mantle viscosity -/
theorem title_sm09 (a d : List Char) (b c : Char) (ha : ∀ x ∈ a, x.isDigit = true) (ha0 : a ≠ []) (hb : b.isDigit = true)
    (hd : ∀ x ∈ d, x.isDigit = true) (hd0 : d ≠ []) (hc : c ≠ '\n') (hc' : c.isDigit = false) :
    title .sm09 ("grate_".toList ++ a ++ 'p' :: b :: (d ++ c :: "clm".toList)) =
      some ("SM09_Huy2_".toList ++ a ++ "_.".toList ++ [b] ++ "_".toList ++ d) := by
  unfold title; rw [find_sm09 a d b c ha ha0 hb hd hd0 hc hc']; rfl

/-- **C77.** Titles of the ICE-6G_D models: the parameters before or after `Stokes_trend` -/
theorem title_ice6gD (x y : List Char) (hx : '\n' ∉ x) (hS : 'S' ∉ x) (hy : '\n' ∉ y) :
    title .ice6gD ("ICE-6G_".toList ++ x ++ "_Stokes_trend.txt".toList) = some ("ICE6G-D_".toList ++ x) ∧
    title .ice6gD ("ICE-6G_".toList ++ x ++ "_Stokes_trend_".toList ++ y ++ ".txt".toList) =
      some ("ICE6G-D_".toList ++ x ++ y) ∧
    title .ice6gD ("Stokes_trend_".toList ++ y ++ ".txt".toList) = some ("ICE6G-D_".toList ++ y) := by
  obtain ⟨g1, h1⟩ := find_ice6gD true false x [] hx hS (by simp) (by simp) (by simp)
  obtain ⟨g2, h2⟩ := find_ice6gD true true x y hx hS (by simp) hy (by simp)
  have h3 := find_ice6gD' y true hy (by simp)
  refine ⟨?_, ?_, ?_⟩ <;> unfold title
  · rw [show "ICE-6G_".toList ++ x ++ "_Stokes_trend.txt".toList = _ from by
      rw [List.append_assoc, show "_Stokes_trend.txt".toList = '_' :: ("Stokes_trend".toList ++ (([] : List Char) ++ ([] ++
        ".txt".toList))) from by decide]]
    simp only [if_true, Bool.false_eq_true, if_false] at h1
    rw [h1]
    simp
  · rw [show "ICE-6G_".toList ++ x ++ "_Stokes_trend_".toList ++ y ++ ".txt".toList = "ICE-6G_".toList ++ (x ++ ('_' ::
      ("Stokes_trend".toList ++ (['_'] ++ (y ++ ".txt".toList))))) from by simp]
    simp only [if_true] at h2
    rw [h2]
    rfl
  · rw [show "Stokes_trend_".toList ++ y ++ ".txt".toList = "Stokes_trend".toList ++ (['_'] ++ (y ++ ".txt".toList)) from by
      simp]
    simp only [if_true] at h3
    rw [h3]
    rfl

/-- **C77.** Titles of the models of Geruo A -/
theorem title_aw13 (c : Char) (x : List Char) (hc : c = '.' ∨ c = '_') (hx : '\n' ∉ x) :
    title .aw13ice6g ("stokes.ice6g".toList ++ c :: (x ++ ".txt".toList)) = some ("AW13_ice6g_".toList ++ x) ∧
    (¬ ".txt".toList <:+ x → title .aw13ice6g ("stokes.ice6g".toList ++ c :: x) = some ("AW13_ice6g_".toList ++ x)) ∧
    title .aw13ij05 ("stokes.R2_".toList ++ x ++ "_ANT".toList) = some ("AW13_IJ05_R2_".toList ++ x) ∧
    (¬ "_ANT".toList <:+ x → title .aw13ij05 ("stokes.R2_".toList ++ x) = some ("AW13_IJ05_R2_".toList ++ x)) := by
  refine ⟨?_, fun hn => ?_, ?_, fun hn => ?_⟩ <;> unfold title
  · rw [find_aw13ice6g c x _ hc hx (Or.inl rfl)]; simp
  · have := find_aw13ice6g c x [] hc hx (Or.inr ⟨rfl, hn⟩)
    rw [List.append_nil] at this
    rw [this]; simp
  · rw [List.append_assoc, find_aw13ij05 x _ hx (Or.inl rfl)]; simp
  · have := find_aw13ij05 x [] hx (Or.inr ⟨rfl, hn⟩)
    rw [List.append_nil] at this
    rw [this]; simp

/-- **C77.** A table without its header lines exactly once is refused -/
theorem ice6gD_headers (f : File) (LMAX MMAX : Option ℕ)
    (h : (∀ y ∈ f.lines, ¬ "GRACE Approximation for degrees 0 to 2".toList <+: y) ∨
      (∀ y ∈ f.lines, ¬ "GRACE Approximation/Absolute Sea-level Values for degrees > 2".toList <+: y)) :
    readGIA .ice6gD (some f) LMAX MMAX = none := by
  have : coefficients .ice6gD (degree .ice6gD LMAX) f = none := by
    unfold coefficients readD
    rcases h with h | h
    · rw [afterHeader_none head1 f.lines h]; rfl
    · rw [afterHeader_none head2 f.lines h]
      cases afterHeader head1 f.lines <;> rfl
  unfold readGIA
  simp [this]

/-- **C77.** A column of Wu that is too short for the degree is refused -/
theorem wu_short (f : File) (data : List ℚ) (hf : f.column = some data) (LMAX MMAX : Option ℕ)
    (h : data.length + 1 < (degree .wu10 LMAX + 1) ^ 2) : readGIA .wu10 (some f) LMAX MMAX = none := by
  have : coefficients .wu10 (degree .wu10 LMAX) f = none := by
    simp only [coefficients, hf, Option.bind_some, readWu_eq]
    rw [if_neg (by omega)]
  unfold readGIA
  simp [this]

/-- **C77.** The object has the coefficients of the reader with its own degree and the order `mmax`, and its dimensions;
but with the documented capital `MMAX` alone it always fails -/
theorem gia_object (k : Kind) (file : Option File) (lmax mmax : Option ℕ) :
    (fromGIA k file lmax mmax none = (readGIA k file lmax mmax).map fun o => (o, o.nl - 1, o.nm - 1)) ∧
    ∀ M : ℕ, fromGIA k file lmax none (some M) = none := by
  constructor
  · simp [fromGIA]
  · intro M; simp [fromGIA]

/-- a header line with a digit is taken as coefficients: with one number it raises -/
theorem header_digit (t : Tok) (line : List Char) (h : Num (dToE line) [t]) (f : File) (hf : line ∈ f.lines)
    (k : Kind) (hk : k = .ij05 ∨ k = .w12a ∨ k = .sm09 ∨ k = .aw13ice6g ∨ k = .aw13ij05) (LMAX MMAX : Option ℕ) :
    readGIA k (some f) LMAX MMAX = none := by
  have hbad : ∀ L sc u, coefLine L sc u line = none := by
    intro L sc u
    unfold coefLine
    rw [rxAll_num _ _ h]
    simp only [List.map_cons, List.map_nil, reduceCtorEq, if_false, List.getElem?_cons_zero, List.getElem?_cons_succ,
      List.getElem?_nil, Option.bind_none, Option.bind_eq_bind]
    cases (some t.chars).bind pyInt <;> rfl
  have hfold : ∀ (ls : List Line) L sc u, line ∈ ls → readTable L sc u ls = none := by
    intro ls L sc
    induction ls with
    | nil => intro u h; simp at h
    | cons a ls ih =>
      intro u hm
      unfold readTable at ih ⊢
      rw [List.foldlM_cons]
      rcases List.mem_cons.mp hm with rfl | hm
      · rw [hbad]; rfl
      · cases coefLine L sc u a with
        | none => rfl
        | some v => exact ih v hm
  have hc : coefficients k (degree k LMAX) f = none := by
    rcases hk with rfl | rfl | rfl | rfl | rfl <;> exact hfold _ _ _ _ hf
  have hne : k ≠ .other := by rcases hk with rfl | rfl | rfl | rfl | rfl <;> decide
  unfold readGIA
  simp [hne, hc]

/-! ## The hypotheses are met -/

/-- an integer of one digit -/
def tok1 (d : Fin 10) : Tok := .int .none d [] none

example : Holds .w12a ⟨"grate_B.clm".toList, ["l m C S".toList, "2 1 -0.5D-3 4".toList], none, none⟩ 120
    (lastC [⟨2, 1, -0.0005, 4⟩]) (lastS [⟨2, 1, -0.0005, 4⟩]) := by
  refine ⟨[⟨2, 1, -0.0005, 4⟩], Table.text _ ?_ (Table.entry _ _ ?_ Table.nil), fun l m => ⟨rfl, rfl⟩⟩
  · refine Num.word ['l'] (by decide) (Or.inr ⟨' ', "m C S".toList, rfl, rfl⟩) (Num.blank ' ' rfl
      (Num.word ['m'] (by decide) (Or.inr ⟨' ', "C S".toList, rfl, rfl⟩) (Num.blank ' ' rfl
      (Num.word ['C'] (by decide) (Or.inr ⟨' ', "S".toList, rfl, rfl⟩) (Num.blank ' ' rfl
      (Num.word ['S'] (by decide) (Or.inl rfl) Num.nil))))))
  · let x : Lit := { sgn := .minus, ip := [0], fp := [5], ex := some (true, .minus, 3, []), digits := by decide }
    refine ⟨.none, 2, [], .none, 1, [], .dec x, tok1 4, [], ?_, by decide, by decide, by decide +kernel, by decide +kernel⟩
    exact Num.num (tok1 2) (Or.inr ⟨' ', _, rfl, rfl⟩) (Num.blank ' ' rfl
      (Num.num (tok1 1) (Or.inr ⟨' ', _, rfl, rfl⟩) (Num.blank ' ' rfl
      (Num.num (.dec x) (Or.inr ⟨' ', _, rfl, rfl⟩) (Num.blank ' ' rfl
      (Num.num (tok1 4) (Or.inl rfl) Num.nil))))))

example : (readGIA .w12a (some ⟨"grate_B.clm".toList, ["l m C S".toList, "2 1 -0.5D-3 4".toList], none, none⟩)
    (some 3) none).map (fun o => (o.tab.c 2 1, o.tab.s 2 1, o.nl, o.title.map String.ofList)) =
    some (-0.0005, 4, 4, some "W12a_Best") := by decide +kernel

example : Holds .wu10 ⟨"x".toList, [], some [1, 2, 3], none⟩ 1
    (fun l m : ℕ => if 1 ≤ l ∧ m ≤ l then ([1, 2, 3] : List ℚ).getD (wuC l m) 0 / 6.371e9 else 0)
    (fun l m : ℕ => if 1 ≤ m ∧ m ≤ l then ([1, 2, 3] : List ℚ).getD (wuS l m) 0 / 6.371e9 else 0) :=
  ⟨[1, 2, 3], rfl, by decide, fun _ _ => ⟨rfl, rfl⟩⟩

example : (wuC 1 0, wuC 1 1, wuS 1 1, wuC 2 0, wuC 2 1, wuS 2 1, wuC 2 2, wuS 2 2) = (0, 1, 2, 3, 4, 5, 6, 7) := rfl

example : Holds .caron ⟨"x".toList, [], none, some [(0, 0, 7), (1, -1, 2), (1, 0, 3), (1, 1, 4)]⟩ 89
    (fun l m : ℕ => lastRow [(0, 0, 7), (1, -1, 2), (1, 0, 3), (1, 1, 4)] l m)
    (fun l m : ℕ => if m = 0 then 0 else lastRow [(0, 0, 7), (1, -1, 2), (1, 0, 3), (1, 1, 4)] l (-(m : ℤ))) :=
  ⟨_, rfl, by decide, fun _ _ => ⟨rfl, rfl⟩⟩

example : StatesIce ["0 1.5 2.".toList] 0 (fun l m => if l = 0 ∧ m = 0 then 1.5e-11 else 0)
    (fun l m => if l = 0 ∧ m = 0 then 2e-11 else 0) := by
  intro l hl m hm
  obtain rfl : l = 0 := by omega
  obtain rfl : m = 0 := by omega
  let x : Lit := { sgn := .none, ip := [1], fp := [5], ex := none, digits := by decide }
  let y : Lit := { sgn := .none, ip := [2], fp := [], ex := none, digits := by decide }
  refine ⟨_, [tok1 0, .dec x, .dec y], rfl, ?_, Or.inr ⟨.dec x, .dec y, rfl, rfl, by decide +kernel, by decide +kernel⟩⟩
  exact Num.num (tok1 0) (Or.inr ⟨' ', _, rfl, rfl⟩) (Num.blank ' ' rfl
      (Num.num (.dec x) (Or.inr ⟨' ', _, rfl, rfl⟩) (Num.blank ' ' rfl
      (Num.num (.dec y) (Or.inl rfl) Num.nil))))

example : StatesD ["title".toList, "GRACE Approximation for degrees 0 to 2:".toList, "2 0 5 0".toList, [], [], [], [], [],
    "text".toList, "GRACE Approximation/Absolute Sea-level Values for degrees > 2".toList, "3 1 7 8".toList]
    [⟨2, 0, 5, 0⟩, ⟨3, 1, 7, 8⟩] := by
  have line : ∀ (a b c d : Fin 10), States ([dchar a, ' ', dchar b, ' ', dchar c, ' ', dchar d])
      ⟨a.val, b.val, c.val, d.val⟩ := by
    intro a b c d
    refine ⟨.none, a, [], .none, b, [], tok1 c, tok1 d, [], ?_, by simp [Sgn.val, decimal], by simp [Sgn.val, decimal],
      by simp [tok1, Tok.val, Sgn.val, decimal, exVal], by simp [tok1, Tok.val, Sgn.val, decimal, exVal]⟩
    have hD : dToE [dchar a, ' ', dchar b, ' ', dchar c, ' ', dchar d] =
        [dchar a, ' ', dchar b, ' ', dchar c, ' ', dchar d] := by
      have : ∀ e : Fin 10, dchar e ≠ 'D' := by decide
      simp [dToE, this]
    rw [hD]
    exact Num.num (tok1 a) (Or.inr ⟨' ', _, rfl, rfl⟩) (Num.blank ' ' rfl
      (Num.num (tok1 b) (Or.inr ⟨' ', _, rfl, rfl⟩) (Num.blank ' ' rfl
      (Num.num (tok1 c) (Or.inr ⟨' ', _, rfl, rfl⟩) (Num.blank ' ' rfl
      (Num.num (tok1 d) (Or.inl rfl) Num.nil))))))
  refine ⟨["title".toList], "GRACE Approximation for degrees 0 to 2:".toList, ["2 0 5 0".toList, [], [], [], [], []],
    ["text".toList], "GRACE Approximation/Absolute Sea-level Values for degrees > 2".toList, ["3 1 7 8".toList],
    [⟨2, 0, 5, 0⟩], [⟨3, 1, 7, 8⟩], rfl, rfl, ⟨":".toList, by decide⟩, ⟨[], by decide⟩, by decide, ?_, ?_, rfl⟩
  · have := line 2 0 5 0
    exact Table.entry _ _ (by simpa [dchar] using this) (Table.text _ Num.nil (Table.text _ Num.nil (Table.text _ Num.nil
      (Table.text _ Num.nil (Table.text _ Num.nil Table.nil)))))
  · have := line 3 1 7 8
    exact Table.entry _ _ (by simpa [dchar] using this) Table.nil

end Verif.GIA
