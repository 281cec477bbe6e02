import Verif.Dealias.Blocks
import Verif.Harmonics.Arith
import Verif.Harmonics.Flatten
import Verif.Harmonics.Series

/-!
# The mean of a month of AOD1B fields (C86)
-/
namespace Verif.Dealias
open Verif.Names Verif.Time Verif.SLR Verif.GIA Verif.SpatialIO Verif.Harmonics

/-! ## Specification -/

/-- one field: its hour and its coefficients -/
structure Hour where
  h : ℕ
  c : ℕ → ℕ → ℚ
  s : ℕ → ℕ → ℚ

/-- the fields of one day -/
structure Day where
  y : ℕ
  m : ℕ
  d : ℕ
  hours : List Hour

/-- the coefficients in the order `P` of the files -/
def rowsOf (P : List (ℕ × ℕ)) (f : Hour) : List Coef := P.map fun p => ⟨p.1, p.2, f.c p.1 p.2, f.s p.1 p.2⟩

/-- `P` lists every degree up to `L` and every order up to the degree once -/
def Layout (L : ℕ) (P : List (ℕ × ℕ)) : Prop := P.Nodup ∧ ∀ l m, (l, m) ∈ P ↔ m ≤ l ∧ l ≤ L

/-- the member of the archive is the file of the day: its name has the date, its text has the fields of the product -/
def FileOf (prod : Name) (P : List (ℕ × ℕ)) (D : Day) (mem : Member) : Prop :=
  (∃ rel gz, IsDigits rel ∧ mem.name = dailyName D.y D.m D.d rel gz) ∧ D.y < 10000 ∧ D.m < 100 ∧ D.d < 100 ∧
    ∃ rest, DayText prod P.length rest (D.hours.map fun f => (⟨f.h, rowsOf P f⟩ : Block)) mem.text

/-- decimal year of a field -/
def hourTime (D : Day) (f : Hour) : Option ℚ :=
  convertCalendarDecimal D.y D.m (day := some (D.d : ℚ)) (hour := some (f.h : ℚ))

/-- arithmetic mean of a number over all fields of all days -/
def average (Ds : List Day) (f : Day → Hour → ℚ) : ℚ :=
  (Ds.map fun D => (D.hours.map (f D)).sum).sum / (Ds.map fun D => (D.hours.length : ℚ)).sum

/-! ## Proofs -/

/-- number of lines of a field -/
theorem layout_length (L : ℕ) (P : List (ℕ × ℕ)) (h : Layout L P) : P.length = nHarmOf L := by
  have hp : P.Perm ((List.range (L + 1)).flatMap fun l => (List.range (l + 1)).map fun m => (l, m)) := by
    rw [List.perm_ext_iff_of_nodup h.1]
    · rintro ⟨l, m⟩
      rw [h.2]
      simp only [List.mem_flatMap, List.mem_range, List.mem_map, Prod.mk.injEq]
      constructor
      · rintro ⟨h1, h2⟩; exact ⟨l, by omega, m, by omega, rfl, rfl⟩
      · rintro ⟨a, h1, b, h2, rfl, rfl⟩; omega
    · rw [List.nodup_flatMap]
      refine ⟨fun x _ => List.Nodup.map (fun a b hab => by simpa using hab) List.nodup_range, ?_⟩
      refine List.Nodup.pairwise_of_forall_ne List.nodup_range ?_
      intro a _ b _ hab
      simp only [Function.onFun, List.disjoint_left, List.mem_map]
      rintro x ⟨c, -, rfl⟩ ⟨d, -, hd⟩
      simp only [Prod.mk.injEq] at hd
      exact hab hd.1.symm
  rw [hp.length_eq]
  have : ∀ n : ℕ, 2 * ((List.range n).flatMap fun l => (List.range (l + 1)).map fun m => (l, m)).length = n * (n + 1) := by
    intro n
    induction n with
    | zero => rfl
    | succ n ih =>
      rw [List.range_succ, List.flatMap_append, List.length_append, Nat.mul_add, ih]
      simp
      ring
  have h2 := this (L + 1)
  unfold nHarmOf
  have e : (L + 1) * (L + 1 + 1) = L ^ 2 + 3 * L + 2 := by ring
  rw [e] at h2
  omega

/-- the columns of a day -/
def colsOf (P : List (ℕ × ℕ)) (D : Day) : List Column :=
  D.hours.map fun f => ⟨D.y, D.m, D.d, ⟨f.h, rowsOf P f⟩⟩

theorem readMembers_ok (days : List ℚ) (h4 : FourDigits days) (prod : Name) (nt : ℕ) (P : List (ℕ × ℕ)) (Ds : List Day)
    (mems : List Member) (hf : List.Forall₂ (FileOf prod P) Ds mems) (hh : ∀ D ∈ Ds, D.hours.length = nt)
    (hd : ∀ D ∈ Ds, (((D.y : ℤ), (D.m : ℤ), (D.d : ℤ)) : ℤ × ℤ × ℤ) ∈ days.map dayOf) :
    readMembers days prod nt P.length mems = .ok (Ds.flatMap (colsOf P)) := by
  induction hf with
  | nil => rfl
  | @cons D mem Ds mems h1 h2 ih =>
    obtain ⟨⟨rel, gz, hr, hname⟩, hy, hm, hdd, rest, ht⟩ := h1
    have hdate := daily_date days h4 D.y D.m D.d hy hm hdd rel hr gz (hd D (by simp))
    have hb := blocks_read prod P.length rest _ _ ht
    rw [List.length_map, hh D (by simp)] at hb
    rw [readMembers, hname, hdate]
    simp only
    rw [hb, ih (fun D' hD' => hh D' (by simp [hD'])) (fun D' hD' => hd D' (by simp [hD']))]
    simp [colsOf, List.map_map, Function.comp_def]

theorem sum_range_get {A : Type} (xs : List A) (f : Option A → ℚ) :
    ((List.range xs.length).map fun t => f xs[t]?).sum = (xs.map fun x => f (some x)).sum := by
  congr 1
  apply List.ext_getElem
  · simp
  · intro i h1 h2
    simp at h1
    simp [h1]

theorem mapM_time (P : List (ℕ × ℕ)) (Ds : List Day) (T : Day → Hour → ℚ)
    (hT : ∀ D ∈ Ds, ∀ f ∈ D.hours, hourTime D f = some (T D f)) :
    (Ds.flatMap (colsOf P)).mapM Column.time = some (Ds.flatMap fun D => D.hours.map (T D)) := by
  induction Ds with
  | nil => rfl
  | cons D Ds ih =>
    have h1 : (colsOf P D).mapM Column.time = some (D.hours.map (T D)) := by
      have hD := hT D (by simp)
      unfold colsOf
      generalize D.hours = hs at hD
      induction hs with
      | nil => rfl
      | cons f hs ih' =>
        have e : Column.time ⟨D.y, D.m, D.d, ⟨f.h, rowsOf P f⟩⟩ = some (T D f) := by
          have := hD f (by simp)
          unfold hourTime at this
          unfold Column.time
          simpa using this
        simp [List.mapM_cons, e, ih' fun g hg => hD g (by simp [hg])]
    rw [List.flatMap_cons, List.mapM_append, h1, ih fun D' hD' => hT D' (by simp [hD'])]
    rfl

theorem sum_flatMap {A : Type} (xs : List A) (f : A → List ℚ) : (xs.flatMap f).sum = (xs.map fun x => (f x).sum).sum := by
  induction xs with
  | nil => rfl
  | cons x xs ih => simp [List.flatMap_cons, ih]

theorem length_flatMap_cast {A B : Type} (xs : List A) (f : A → List B) :
    ((xs.flatMap f).length : ℚ) = (xs.map fun x => ((f x).length : ℚ)).sum := by
  induction xs with
  | nil => simp
  | cons x xs ih => rw [List.flatMap_cons, List.length_append, Nat.cast_add, ih]; simp

/-- the mean of columns written in one order of degrees -/
theorem meanOf_ok (days : List ℚ) (L0 LMAX gm : ℕ) (P : List (ℕ × ℕ)) (hP : Layout L0 P) (Ds : List Day)
    (hne : ∃ D ∈ Ds, D.hours ≠ []) (T : Day → Hour → ℚ) (hT : ∀ D ∈ Ds, ∀ f ∈ D.hours, hourTime D f = some (T D f))
    (j0 j1 : ℚ) (h0 : days.min? = some j0) (h1 : days.max? = some j1) :
    ∃ o, meanOf days L0 P.length LMAX gm (Ds.flatMap (colsOf P)) = some o ∧ o.field.lmax = LMAX ∧ o.field.mmax = LMAX ∧
      o.field.nt = none ∧ o.month = gm ∧ o.start = dayOf j0 ∧ o.stop = dayOf j1 ∧ o.time = average Ds T ∧
      ∀ l m, m ≤ l → l ≤ LMAX →
        o.field.clm l m 0 = (if l ≤ L0 then average Ds (fun _ f => f.c l m) else 0) ∧
        o.field.slm l m 0 = (if l ≤ L0 then average Ds (fun _ f => f.s l m) else 0) := by
  obtain ⟨D0, hD0, hf0⟩ := hne
  set cols := Ds.flatMap (colsOf P) with hcols
  have hcne : cols ≠ [] := by
    obtain ⟨f, hf⟩ := List.exists_mem_of_ne_nil _ hf0
    exact List.ne_nil_of_mem (List.mem_flatMap.2 ⟨D0, hD0, List.mem_map.2 ⟨f, hf, rfl⟩⟩)
  have hall : ∀ c ∈ cols, ∃ D ∈ Ds, ∃ f ∈ D.hours, c = ⟨D.y, D.m, D.d, ⟨f.h, rowsOf P f⟩⟩ := by
    intro c hc
    obtain ⟨D, hD, hc⟩ := List.mem_flatMap.1 hc
    obtain ⟨f, hf, rfl⟩ := List.mem_map.1 hc
    exact ⟨D, hD, f, hf, rfl⟩
  -- the rows of the flattened object
  set fl := flatOf L0 P.length cols [] with hfl
  have hrow : fl.rows = (List.range P.length).map fun k : ℕ =>
      ({ l := ((P[k]?).map Prod.fst).getD 0, m := ((P[k]?).map Prod.snd).getD 0
         c := fun t => (((cols[t]?).bind fun c => c.block.rows[k]?).map Coef.c).getD 0
         s := fun t => (((cols[t]?).bind fun c => c.block.rows[k]?).map Coef.s).getD 0 } : Row ℚ) := by
    rw [hfl]
    unfold flatOf
    simp only
    obtain ⟨D, -, f, -, hlast⟩ := hall _ (List.getLast_mem hcne)
    rw [List.getLast?_eq_some_getLast hcne, hlast]
    simp [rowsOf, List.getElem?_map, Option.map_map, Function.comp_def]
  have hkey : fl.rows.map (fun r => (r.l, r.m)) = P := by
    rw [hrow, List.map_map]
    apply List.ext_getElem
    · simp
    · intro i hi hi2
      simp [hi2]
  have hall2 : fl.rows.all (fun r => decide (r.l ≤ fl.lmax) && decide (r.m ≤ fl.mmax)) = true := by
    rw [List.all_eq_true]
    intro r hr
    have : (r.l, r.m) ∈ P := by rw [← hkey]; exact List.mem_map.2 ⟨r, hr, rfl⟩
    have h := (hP.2 _ _).1 this
    have e1 : fl.lmax = L0 := rfl
    have e2 : fl.mmax = L0 := rfl
    simp only [e1, e2, Bool.and_eq_true, decide_eq_true_eq]
    omega
  have hexp := expand_ok fl hall2
  have hlook : ∀ l m, m ≤ l → l ≤ L0 → ∀ t : ℕ,
      rowLoop fl.rows (fun r => (r.l, r.m)) Row.c (fun _ _ => (0 : ℚ)) (l, m) t =
        (((cols[t]?).bind fun c => (c.block.rows.find? fun k => k.l = l ∧ k.m = m)).map Coef.c).getD 0 ∧
      rowLoop fl.rows (fun r => (r.l, r.m)) Row.s (fun _ _ => (0 : ℚ)) (l, m) t =
        (((cols[t]?).bind fun c => (c.block.rows.find? fun k => k.l = l ∧ k.m = m)).map Coef.s).getD 0 := by
    intro l m hml hlL t
    obtain ⟨k, hk, hkP⟩ := List.getElem_of_mem ((hP.2 l m).2 ⟨hml, hlL⟩)
    have hkl : k < fl.rows.length := by rw [hrow]; simpa using hk
    have hr : (fl.rows[k]).l = l ∧ (fl.rows[k]).m = m := by
      simp only [hrow, List.getElem_map, List.getElem_range]
      rw [List.getElem?_eq_getElem hk, hkP]
      exact ⟨rfl, rfl⟩
    have hnd : (fl.rows.map fun r => (r.l, r.m)).Nodup := by rw [hkey]; exact hP.1
    have a := rowLoop_nodup fl.rows (fun r => (r.l, r.m)) Row.c (fun _ _ => (0 : ℚ)) hnd _ (List.getElem_mem hkl)
    have b := rowLoop_nodup fl.rows (fun r => (r.l, r.m)) Row.s (fun _ _ => (0 : ℚ)) hnd _ (List.getElem_mem hkl)
    simp only [hr.1, hr.2] at a b
    rw [a, b]
    simp only [hrow, List.getElem_map, List.getElem_range]
    have hfind : ∀ c ∈ cols, c.block.rows[k]? = c.block.rows.find? fun k => k.l = l ∧ k.m = m := by
      intro c hc
      obtain ⟨D, -, f, -, rfl⟩ := hall c hc
      simp only [rowsOf, List.getElem?_map, List.getElem?_eq_getElem hk, Option.map_some, hkP, List.find?_map,
        Function.comp_def]
      have : P.find? (fun p => decide (p.1 = l ∧ p.2 = m)) = some (l, m) := by
        have hs : (P.find? (fun p => decide (p.1 = l ∧ p.2 = m))).isSome := by
          rw [List.find?_isSome]; exact ⟨(l, m), (hP.2 l m).2 ⟨hml, hlL⟩, by simp⟩
        obtain ⟨q, hq⟩ := Option.isSome_iff_exists.1 hs
        have := List.find?_some hq
        simp only [decide_eq_true_eq] at this
        rw [hq, ← this.1, ← this.2]
      rw [this]
      rfl
    cases ht : cols[t]? with
    | none => simp
    | some c =>
      have hc := List.mem_of_getElem? ht
      simp only [Option.bind_some, hfind c hc]
      exact ⟨trivial, trivial⟩
  have hval : ∀ l m, m ≤ l → l ≤ L0 → ∀ c ∈ cols, ∀ D ∈ Ds, ∀ f ∈ D.hours, c = ⟨D.y, D.m, D.d, ⟨f.h, rowsOf P f⟩⟩ →
      (c.block.rows.find? fun k => k.l = l ∧ k.m = m) = some ⟨l, m, f.c l m, f.s l m⟩ := by
    intro l m hml hlL c _ D _ f _ he
    subst he
    simp only [rowsOf, List.find?_map, Function.comp_def]
    have : P.find? (fun p => decide (p.1 = l ∧ p.2 = m)) = some (l, m) := by
      have hs : (P.find? (fun p => decide (p.1 = l ∧ p.2 = m))).isSome := by
        rw [List.find?_isSome]; exact ⟨(l, m), (hP.2 l m).2 ⟨hml, hlL⟩, by simp⟩
      obtain ⟨q, hq⟩ := Option.isSome_iff_exists.1 hs
      have := List.find?_some hq
      simp only [decide_eq_true_eq] at this
      rw [hq, ← this.1, ← this.2]
    rw [this]
    rfl
  have hlen : (cols.length : ℚ) = (Ds.map fun D => (D.hours.length : ℚ)).sum := by
    rw [hcols, length_flatMap_cast]
    simp [colsOf]
  have htm := mapM_time P Ds T hT
  rw [← hcols] at htm
  have hM : (truncate (K := ℚ) (lmax := some LMAX)
      { lmax := fl.lmax, mmax := fl.mmax, nt := fl.nt
        clm := fun l m => rowLoop fl.rows (fun r => (r.l, r.m)) Row.c (fun _ _ => (0 : ℚ)) (l, m)
        slm := fun l m => rowLoop fl.rows (fun r => (r.l, r.m)) Row.s (fun _ _ => (0 : ℚ)) (l, m)
        time := fl.time, month := fl.month }).mmax = LMAX := by
    simp [truncate]
  refine ⟨_, by unfold meanOf; rw [htm, hexp, h0, h1], rfl, hM, rfl, rfl, rfl, rfl, ?_, ?_⟩
  · show npMean (Ds.flatMap fun D => D.hours.map (T D)) = average Ds T
    unfold npMean average
    rw [sum_flatMap, length_flatMap_cast]
    simp
  · intro l m hml hlL
    have hmv := mean_value (truncate (K := ℚ) (lmax := some LMAX)
      { lmax := fl.lmax, mmax := fl.mmax, nt := fl.nt
        clm := fun l m => rowLoop fl.rows (fun r => (r.l, r.m)) Row.c (fun _ _ => (0 : ℚ)) (l, m)
        slm := fun l m => rowLoop fl.rows (fun r => (r.l, r.m)) Row.s (fun _ _ => (0 : ℚ)) (l, m)
        time := fl.time, month := fl.month }) false (List.range cols.length) l m hlL (by rw [hM]; omega)
    rw [if_pos hml, if_pos hml] at hmv
    have e1 : fl.lmax = L0 := rfl
    have e2 : fl.mmax = L0 := rfl
    by_cases hl0 : l ≤ L0
    · have hb : (0 ≤ l ∧ l < bound1 LMAX fl.lmax ∧ m < bound1 (if LMAX ≠ 0 then LMAX else LMAX) fl.mmax) := by
        rw [ite_self, e1, e2]; unfold bound1; refine ⟨by omega, ?_, ?_⟩ <;> split_ifs <;> omega
      have g1 : ∀ t : ℕ, (truncate (K := ℚ) (lmax := some LMAX)
          { lmax := fl.lmax, mmax := fl.mmax, nt := fl.nt
            clm := fun l m => rowLoop fl.rows (fun r => (r.l, r.m)) Row.c (fun _ _ => (0 : ℚ)) (l, m)
            slm := fun l m => rowLoop fl.rows (fun r => (r.l, r.m)) Row.s (fun _ _ => (0 : ℚ)) (l, m)
            time := fl.time, month := fl.month }).clm l m t =
          (((cols[t]?).bind fun c => (c.block.rows.find? fun k => k.l = l ∧ k.m = m)).map Coef.c).getD 0 := by
        intro t
        rw [← (hlook l m hml hl0 t).1]
        simp only [truncate, Option.getD_some, Option.getD_none]
        rw [if_pos hb]
      have g2 : ∀ t : ℕ, (truncate (K := ℚ) (lmax := some LMAX)
          { lmax := fl.lmax, mmax := fl.mmax, nt := fl.nt
            clm := fun l m => rowLoop fl.rows (fun r => (r.l, r.m)) Row.c (fun _ _ => (0 : ℚ)) (l, m)
            slm := fun l m => rowLoop fl.rows (fun r => (r.l, r.m)) Row.s (fun _ _ => (0 : ℚ)) (l, m)
            time := fl.time, month := fl.month }).slm l m t =
          (((cols[t]?).bind fun c => (c.block.rows.find? fun k => k.l = l ∧ k.m = m)).map Coef.s).getD 0 := by
        intro t
        rw [← (hlook l m hml hl0 t).2]
        simp only [truncate, Option.getD_some, Option.getD_none]
        rw [if_pos hb]
      rw [if_pos hl0, if_pos hl0]
      constructor
      · refine hmv.1.trans ?_
        simp only [g1]
        rw [sum_range_get cols (fun o => ((o.bind fun c => (c.block.rows.find? fun k => k.l = l ∧ k.m = m)).map Coef.c).getD 0),
          List.length_range, hlen]
        unfold average
        congr 1
        rw [hcols, List.map_flatMap, sum_flatMap]
        congr 1
        apply List.map_congr_left
        intro D hD
        unfold colsOf
        rw [List.map_map]
        congr 1
        apply List.map_congr_left
        intro f hf
        simp only [Function.comp_apply, Option.bind_some]
        have hc : (⟨D.y, D.m, D.d, ⟨f.h, rowsOf P f⟩⟩ : Column) ∈ cols :=
          List.mem_flatMap.2 ⟨D, hD, List.mem_map.2 ⟨f, hf, rfl⟩⟩
        rw [hval l m hml hl0 _ hc D hD f hf rfl]
        rfl
      · refine hmv.2.trans ?_
        simp only [g2]
        rw [sum_range_get cols (fun o => ((o.bind fun c => (c.block.rows.find? fun k => k.l = l ∧ k.m = m)).map Coef.s).getD 0),
          List.length_range, hlen]
        unfold average
        congr 1
        rw [hcols, List.map_flatMap, sum_flatMap]
        congr 1
        apply List.map_congr_left
        intro D hD
        unfold colsOf
        rw [List.map_map]
        congr 1
        apply List.map_congr_left
        intro f hf
        simp only [Function.comp_apply, Option.bind_some]
        have hc : (⟨D.y, D.m, D.d, ⟨f.h, rowsOf P f⟩⟩ : Column) ∈ cols :=
          List.mem_flatMap.2 ⟨D, hD, List.mem_map.2 ⟨f, hf, rfl⟩⟩
        rw [hval l m hml hl0 _ hc D hD f hf rfl]
        rfl
    · have hb : ¬ (0 ≤ l ∧ l < bound1 LMAX fl.lmax ∧ m < bound1 (if LMAX ≠ 0 then LMAX else LMAX) fl.mmax) := by
        rw [e1]; unfold bound1; intro h; have := h.2.1; split_ifs at this <;> omega
      rw [if_neg hl0, if_neg hl0]
      constructor
      · refine hmv.1.trans ?_
        simp only [truncate, Option.getD_some, Option.getD_none]
        simp only [if_neg hb]
        simp
      · refine hmv.2.trans ?_
        simp only [truncate, Option.getD_some, Option.getD_none]
        simp only [if_neg hb]
        simp

/-- C86: the mean of a month is, coefficient by coefficient, the arithmetic mean of all fields of the product in the files of
its days, up to the requested degree; degrees above those of the files are zero.  The date is the mean of the dates of
the fields -/
theorem month_mean (days : List ℚ) (h4 : FourDigits days) (prod : Name) (nt L0 LMAX gm : ℕ) (hnt : nt ≠ 0) (P : List (ℕ × ℕ))
    (hP : Layout L0 P) (Ds : List Day) (hne : Ds ≠ []) (mems : List Member) (hf : List.Forall₂ (FileOf prod P) Ds mems)
    (hh : ∀ D ∈ Ds, D.hours.length = nt)
    (hd : ∀ D ∈ Ds, (((D.y : ℤ), (D.m : ℤ), (D.d : ℤ)) : ℤ × ℤ × ℤ) ∈ days.map dayOf)
    (T : Day → Hour → ℚ) (hT : ∀ D ∈ Ds, ∀ f ∈ D.hours, hourTime D f = some (T D f))
    (j0 j1 : ℚ) (h0 : days.min? = some j0) (h1 : days.max? = some j1) :
    ∃ o, monthMean days prod nt L0 LMAX gm mems = .ok o ∧ o.field.lmax = LMAX ∧ o.field.mmax = LMAX ∧
      o.field.nt = none ∧ o.month = gm ∧ o.start = dayOf j0 ∧ o.stop = dayOf j1 ∧ o.time = average Ds T ∧
      ∀ l m, m ≤ l → l ≤ LMAX →
        o.field.clm l m 0 = (if l ≤ L0 then average Ds (fun _ f => f.c l m) else 0) ∧
        o.field.slm l m 0 = (if l ≤ L0 then average Ds (fun _ f => f.s l m) else 0) := by
  obtain ⟨D, hD⟩ := List.exists_mem_of_ne_nil _ hne
  have hne' : ∃ D ∈ Ds, D.hours ≠ [] := ⟨D, hD, by intro e; have := hh D hD; rw [e] at this; simp at this; omega⟩
  obtain ⟨o, ho, hrest⟩ := meanOf_ok days L0 LMAX gm P hP Ds hne' T hT j0 j1 h0 h1
  refine ⟨o, ?_, hrest⟩
  unfold monthMean
  rw [← layout_length L0 P hP, readMembers_ok days h4 prod nt P Ds mems hf hh hd]
  simp only
  rw [ho]

end Verif.Dealias
