import Verif.Dealias.Days
import Verif.Dealias.Mean
import Verif.Time.Decimal

/-!
# The program making monthly means of AOD1B fields (C86)
-/
namespace Verif.Dealias
open Verif.Names Verif.Time Verif.Time.Spec Verif.SLR Verif.GIA Verif.SpatialIO Verif.Harmonics

/-! ## Specification -/

/-- the calendar days from the first to the last day of the year of a line of dates -/
def monthDays (r : DateRow) : List (ℤ × ℤ × ℤ) :=
  (List.range (r.endday + 1 - r.stday).toNat).map fun i : ℕ => later i (later (r.stday - 1).toNat (r.styr, 1, 1))

/-- a month inside a year for which the calendar days are found correctly (see C86 about the turn of a century) -/
structure Inside (r : DateRow) : Prop where
  same : r.styr = r.endyr
  from1583 : 1583 ≤ r.styr
  upTo9999 : r.styr < 10000
  noTurn : ¬ Turn r.styr
  not4000 : r.styr % 4000 ≠ 0
  first : 1 ≤ r.stday
  order : r.stday ≤ r.endday
  last : r.endday ≤ yearLen r.styr

/-- a monthly archive with the fields of its files -/
structure Arch where
  tar : Tar
  files : List (Day × Member)

/-- date of a file -/
def dateOf (D : Day) : ℤ × ℤ × ℤ := (D.y, D.m, D.d)

/-- the archive has the name of its month and holds files of days of this month, each with `nt` fields -/
def Arch.OK (prod : Name) (P : List (ℕ × ℕ)) (nt : ℕ) (a : Arch) : Prop :=
  ∃ y m rel tgz, a.tar.name = archiveName y m rel tgz ∧ IsDigits rel ∧ y < 10000 ∧ m < 100 ∧
    a.tar.members = a.files.map Prod.snd ∧
    ∀ f ∈ a.files, FileOf prod P f.1 f.2 ∧ f.1.y = y ∧ f.1.m = m ∧ f.1.hours.length = nt

/-- all files -/
def filesOf (As : List Arch) : List (Day × Member) := As.flatMap Arch.files

/-- the files of a month -/
def monthFiles (As : List Arch) (r : DateRow) : List (Day × Member) :=
  (filesOf As).filter fun f => dateOf f.1 ∈ monthDays r

/-- there is a file for every day of the month -/
def Complete (As : List Arch) (r : DateRow) : Prop := ∀ p ∈ monthDays r, ∃ f ∈ filesOf As, dateOf f.1 = p

/-- decimal year of a field of a day: the year and the elapsed part of it -/
def fieldTime (D : Day) (f : Hour) : ℚ :=
  D.y + ((dayNumber D.y D.m D.d - dayNumber D.y 1 1 : ℤ) + (f.h : ℚ) / 24) / yearLen D.y

/-- what is to be written for a month -/
structure IsMean (As : List Arch) (L0 LMAX : ℕ) (r : DateRow) (o : Out) : Prop where
  degree : o.field.lmax = LMAX ∧ o.field.mmax = LMAX ∧ o.field.nt = none
  month : o.month = r.mon
  start : o.start = later (r.stday - 1).toNat (r.styr, 1, 1)
  stop : o.stop = later (r.endday - 1).toNat (r.styr, 1, 1)
  time : o.time = average ((monthFiles As r).map Prod.fst) fieldTime
  clm : ∀ l m, m ≤ l → l ≤ LMAX →
    o.field.clm l m 0 = (if l ≤ L0 then average ((monthFiles As r).map Prod.fst) (fun _ f => f.c l m) else 0)
  slm : ∀ l m, m ≤ l → l ≤ LMAX →
    o.field.slm l m 0 = (if l ≤ L0 then average ((monthFiles As r).map Prod.fst) (fun _ f => f.s l m) else 0)

/-- the file of the month is to be written: there is none, a file of one of its days is newer, or all are to be overwritten -/
def Stale (j : Job) (As : List Arch) (LMAX : ℕ) (st : Disk) (r : DateRow) : Prop :=
  st.outs (outName j LMAX r) = none ∨ j.clobber = true ∨
    ∃ t o, st.outs (outName j LMAX r) = some (t, o) ∧ ∃ f ∈ monthFiles As r, t < (f.2.mtime : ℚ)

/-- archives as they are distributed: each day once -/
structure Archives (prod : Name) (P : List (ℕ × ℕ)) (nt : ℕ) (As : List Arch) : Prop where
  ok : ∀ a ∈ As, a.OK prod P nt
  once : ((filesOf As).map fun f => dateOf f.1).Nodup

/-! ## Proofs -/

theorem fieldTime_eq (D : Day) (f : Hour) (h4 : (D.y : ℤ) % 4000 ≠ 0) (h1 : 1 ≤ D.m) (h2 : D.m ≤ 12) :
    hourTime D f = some (fieldTime D f) := by
  have e : hourTime D f = convertCalendarDecimal D.y D.m (day := some ((D.d : ℤ) : ℚ)) (hour := some (f.h : ℚ))
      (minute := some 0) (second := some 0) := by
    unfold hourTime; rw [Int.cast_natCast]; rfl
  rw [e, decimal_of_date D.y D.m D.d _ _ _ h4 (by omega) (by omega)]
  unfold fieldTime
  simp

theorem julian_step (y n : ℤ) (i : ℕ) : calcJulianDay y (n + i) = calcJulianDay y n + i := by
  unfold calcJulianDay; push_cast; ring

theorem min_of_sorted (xs : List ℚ) (x : ℚ) (h : ∀ y ∈ xs, x ≤ y) : (x :: xs).min? = some x := by
  rw [List.min?_eq_some_iff]
  exact ⟨by simp, by simpa using h⟩

/-- first and last day -/
theorem days_bounds (r : DateRow) (h : Inside r) (days : List ℚ) (hd : daysToRead r = some days) :
    days.min? = some (calcJulianDay r.styr r.stday) ∧ days.max? = some (calcJulianDay r.styr r.endday) := by
  unfold daysToRead at hd
  rw [if_neg (by simpa using h.same), Option.some.injEq] at hd
  have ho := h.order
  subst hd
  constructor
  · rw [List.min?_eq_some_iff]
    constructor
    · rw [List.mem_map]
      exact ⟨0, by rw [List.mem_range]; omega, by simp⟩
    · intro b hb
      obtain ⟨i, -, rfl⟩ := List.mem_map.1 hb
      rw [julian_step]
      have : (0 : ℚ) ≤ i := Nat.cast_nonneg i
      linarith
  · rw [List.max?_eq_some_iff]
    constructor
    · rw [List.mem_map]
      exact ⟨(r.endday - r.stday).toNat, by rw [List.mem_range]; omega, by congr 1; omega⟩
    · intro b hb
      obtain ⟨i, hi, rfl⟩ := List.mem_map.1 hb
      rw [List.mem_range] at hi
      obtain ⟨k, hk⟩ : ∃ k : ℕ, r.endday = r.stday + i + k := ⟨(r.endday - r.stday - i).toNat, by omega⟩
      rw [hk, julian_step r.styr (r.stday + i) k]
      have : (0 : ℚ) ≤ k := Nat.cast_nonneg k
      linarith

theorem days_dates (r : DateRow) (h : Inside r) :
    ∃ days, daysToRead r = some days ∧ days.map dayOf = monthDays r ∧ days ≠ [] ∧ FourDigits days ∧
      days.length = (monthDays r).length := by
  obtain ⟨days, h1, h2, h3, h4⟩ := days_of_month r h.same h.from1583 h.noTurn h.first h.last
  have hlen : days.length = (monthDays r).length := by rw [h2]; simp [monthDays]
  have ho := h.order
  refine ⟨days, h1, ?_, ?_, ?_, hlen⟩
  · apply List.ext_getElem?
    intro i
    by_cases hi : i < days.length
    · rw [List.getElem?_map, h3 i hi]
      unfold monthDays
      rw [List.getElem?_map, List.getElem?_range (by omega)]
      rfl
    · rw [List.getElem?_eq_none (by rw [List.length_map]; omega), List.getElem?_eq_none (by omega)]
  · intro e; rw [e] at h2; simp at h2; omega
  · intro jd hj
    rw [h4 jd hj]
    have := h.from1583
    have := h.upTo9999
    omega

theorem monthDays_nodup (r : DateRow) : (monthDays r).Nodup := by
  unfold monthDays
  apply List.Nodup.map _ List.nodup_range
  intro a b hab
  simp only [later_add] at hab
  have ha := (later_number ((r.stday - 1).toNat + a) (r.styr, 1, 1) (valid_newYear _)).2
  have hb := (later_number ((r.stday - 1).toNat + b) (r.styr, 1, 1) (valid_newYear _)).2
  rw [hab] at ha
  rw [ha] at hb
  push_cast at hb
  omega

theorem monthDays_valid (r : DateRow) (p : ℤ × ℤ × ℤ) (hp : p ∈ monthDays r) : Valid p.1 p.2.1 p.2.2 := by
  obtain ⟨i, -, rfl⟩ := List.mem_map.1 hp
  rw [later_add]
  exact (later_number _ (r.styr, 1, 1) (valid_newYear _)).1

theorem monthDays_year (r : DateRow) (h : Inside r) (p : ℤ × ℤ × ℤ) (hp : p ∈ monthDays r) : p.1 = r.styr := by
  obtain ⟨i, hi, rfl⟩ := List.mem_map.1 hp
  rw [List.mem_range] at hi
  have h1 := h.first
  have h2 := h.last
  rw [later_add]
  exact later_year _ _ (by omega)

theorem exists_perm_map {A B : Type} (f : A → B) {l l' : List B} (h : l.Perm l') :
    ∀ xs : List A, xs.map f = l' → ∃ ys : List A, ys.Perm xs ∧ ys.map f = l := by
  induction h with
  | nil => intro xs hx; exact ⟨xs, List.Perm.refl _, hx⟩
  | cons x _ ih =>
    intro xs hx
    cases xs with
    | nil => simp at hx
    | cons y ys =>
      rw [List.map_cons, List.cons.injEq] at hx
      obtain ⟨zs, h1, h2⟩ := ih ys hx.2
      exact ⟨y :: zs, h1.cons y, by rw [List.map_cons, h2, hx.1]⟩
  | swap x y l =>
    intro xs hx
    match xs, hx with
    | [], hx => simp at hx
    | [_], hx => simp at hx
    | a :: b :: zs, hx =>
      simp only [List.map_cons, List.cons.injEq] at hx
      refine ⟨b :: a :: zs, List.Perm.swap .., ?_⟩
      simp [hx.1, hx.2.1, hx.2.2]
  | trans _ _ ih1 ih2 =>
    intro xs hx
    obtain ⟨ys, h1, h2⟩ := ih2 xs hx
    obtain ⟨zs, h3, h4⟩ := ih1 ys h2
    exact ⟨zs, h3.trans h1, h4⟩

theorem flatMap_congr' {A B : Type} (xs : List A) (f g : A → List B) (h : ∀ x ∈ xs, f x = g x) :
    xs.flatMap f = xs.flatMap g := by
  induction xs with
  | nil => rfl
  | cons x xs ih =>
    rw [List.flatMap_cons, List.flatMap_cons, h x (by simp), ih fun y hy => h y (by simp [hy])]

/-- the files used for a month are those of its days -/
theorem members_of_month (prod : Name) (P : List (ℕ × ℕ)) (nt : ℕ) (As : List Arch) (hA : ∀ a ∈ As, a.OK prod P nt)
    (r : DateRow) (days : List ℚ) (hm : days.map dayOf = monthDays r) (hne : days ≠ []) (h4 : FourDigits days) :
    ∃ fs : List (Day × Member), fs.Perm (monthFiles As r) ∧ findMembers days (As.map Arch.tar) = fs.map Prod.snd := by
  -- the files of an archive
  have hmem : ∀ a ∈ As, (a.tar.members.filter fun m => accepts (memberRe (dayTexts days)) m.name) =
      (a.files.filter fun f => dateOf f.1 ∈ monthDays r).map Prod.snd := by
    intro a ha
    obtain ⟨y, m, rel, tgz, -, -, -, -, hmem, hfiles⟩ := hA a ha
    rw [hmem, List.filter_map]
    congr 1
    apply List.filter_congr
    intro f hf
    obtain ⟨⟨⟨rel, gz, hr, hname⟩, hy, hmm, hd, -⟩, -, -, -⟩ := hfiles f hf
    have := daily_found days hne h4 f.1.y f.1.m f.1.d hy hmm hd rel hr gz
    rw [hm] at this
    simp only [Function.comp_apply, hname]
    rw [Bool.eq_iff_iff, this]
    exact decide_eq_true_iff.symm
  -- an archive that is not used has no such file
  have htar : ∀ a ∈ As, accepts (tarRe (monthTexts days)) a.tar.name = false →
      (a.files.filter fun f => dateOf f.1 ∈ monthDays r) = [] := by
    intro a ha hacc
    obtain ⟨y, m, rel, tgz, hname, hrel, hy, hmm, -, hfiles⟩ := hA a ha
    rw [List.filter_eq_nil_iff]
    intro f hf hin
    have hin : dateOf f.1 ∈ monthDays r := by simpa using hin
    have := (archive_found days hne h4 y m hy hmm rel hrel tgz).2 ⟨f.1.d, by
      rw [hm]
      obtain ⟨-, h1, h2, -⟩ := hfiles f hf
      have e : dateOf f.1 = ((y : ℤ), (m : ℤ), (f.1.d : ℤ)) := by unfold dateOf; rw [h1, h2]
      rw [← e]; exact hin⟩
    rw [← hname, hacc] at this
    exact absurd this (by simp)
  set sel := As.filter fun a => accepts (tarRe (monthTexts days)) a.tar.name with hsel
  have hperm : (((As.map Arch.tar).filter fun t => accepts (tarRe (monthTexts days)) t.name).insertionSort
      fun a b => a.name ≤ b.name).Perm (sel.map Arch.tar) := by
    refine (List.perm_insertionSort _ _).trans ?_
    rw [List.filter_map]
    exact List.Perm.refl _
  obtain ⟨sorted, hs1, hs2⟩ := exists_perm_map Arch.tar hperm sel rfl
  refine ⟨sorted.flatMap fun a => a.files.filter fun f => dateOf f.1 ∈ monthDays r, ?_, ?_⟩
  · have e1 : (sorted.flatMap fun a => a.files.filter fun f => dateOf f.1 ∈ monthDays r).Perm
        (sel.flatMap fun a => a.files.filter fun f => dateOf f.1 ∈ monthDays r) := hs1.flatMap_right _
    refine e1.trans ?_
    have e2 : (sel.flatMap fun a => a.files.filter fun f => dateOf f.1 ∈ monthDays r) = monthFiles As r := by
      rw [hsel]
      unfold monthFiles filesOf
      clear hs1 hs2 hperm hsel sel e1 sorted hmem hA
      induction As with
      | nil => rfl
      | cons a As ih =>
        rw [List.flatMap_cons, List.filter_append, ← ih fun b hb => htar b (by simp [hb]), List.filter_cons]
        cases hacc : accepts (tarRe (monthTexts days)) a.tar.name
        · rw [htar a (by simp) hacc]; simp
        · simp
    rw [e2]
  · show ((((As.map Arch.tar).filter fun t => accepts (tarRe (monthTexts days)) t.name).insertionSort
      fun a b => a.name ≤ b.name).flatMap fun t => t.members.filter fun m => accepts (memberRe (dayTexts days)) m.name) = _
    rw [← hs2, List.flatMap_map, List.map_flatMap]
    apply flatMap_congr'
    intro a ha
    have : a ∈ As := by
      have := hs1.mem_iff.1 ha
      rw [hsel] at this
      exact (List.mem_filter.1 this).1
    exact hmem a this

/-- the number of files tells whether the month is complete -/
theorem complete_count (As : List Arch) (hA : ((filesOf As).map fun f => dateOf f.1).Nodup) (r : DateRow) :
    (monthFiles As r).length ≤ (monthDays r).length ∧
      ((monthFiles As r).length = (monthDays r).length ↔ Complete As r) := by
  set ds := (monthFiles As r).map fun f => dateOf f.1 with hds
  have hl : ds.length = (monthFiles As r).length := by rw [hds, List.length_map]
  have hnd : ds.Nodup := by
    rw [hds]
    exact hA.sublist ((List.filter_sublist).map _)
  have hsub : ds ⊆ monthDays r := by
    intro p hp
    obtain ⟨f, hf, rfl⟩ := List.mem_map.1 hp
    have := (List.mem_filter.1 hf).2
    simpa using this
  have hle : ds.length ≤ (monthDays r).length := (hnd.subperm hsub).length_le
  refine ⟨by rw [← hl]; exact hle, ?_⟩
  rw [← hl]
  constructor
  · intro he p hp
    have hperm := (hnd.subperm hsub).perm_of_length_le (by rw [he])
    have := hperm.mem_iff.2 hp
    obtain ⟨f, hf, hfp⟩ := List.mem_map.1 this
    exact ⟨f, (List.mem_filter.1 hf).1, hfp⟩
  · intro hc
    apply le_antisymm hle
    apply ((monthDays_nodup r).subperm ?_).length_le
    intro p hp
    obtain ⟨f, hf, hfp⟩ := hc p hp
    exact List.mem_map.2 ⟨f, List.mem_filter.2 ⟨hf, by rw [hfp]; simpa using hp⟩, hfp⟩

theorem average_perm (As Bs : List Day) (h : As.Perm Bs) (f : Day → Hour → ℚ) : average As f = average Bs f := by
  unfold average
  rw [(h.map _).sum_eq, (h.map fun D : Day => (D.hours.length : ℚ)).sum_eq]

/-- C86: one month of the program.  Nothing is done unless there is a file for every day of the month; if there is, the month
is listed, and its file is written anew exactly if there is none, a file of a day is newer, or all are to be overwritten -/
theorem month_step (j : Job) (prod : Name) (nt L0 : ℕ) (hnt : nt ≠ 0) (P : List (ℕ × ℕ)) (hP : Layout L0 P) (As : List Arch)
    (hA : Archives prod P nt As) (now : ℚ) (st : Disk) (r : DateRow) (hr : Inside r) :
    (¬ Complete As r → monthStep j prod nt L0 (As.map Arch.tar) now st r = (st, .finished)) ∧
    (Complete As r → ¬ Stale j As (j.degree L0) st r →
      monthStep j prod nt L0 (As.map Arch.tar) now st r = ({ st with dates := st.dates ++ [r] }, .finished)) ∧
    (Complete As r → Stale j As (j.degree L0) st r →
      ∃ o, IsMean As L0 (j.degree L0) r o ∧ monthStep j prod nt L0 (As.map Arch.tar) now st r =
        ({ outs := Function.update st.outs (outName j (j.degree L0) r) (some (now, o)), dates := st.dates ++ [r] },
          .finished)) := by
  obtain ⟨days, hdays, hmap, hne, h4, hlen⟩ := days_dates r hr
  obtain ⟨fs, hfs, hfind⟩ := members_of_month prod P nt As hA.ok r days hmap hne h4
  obtain ⟨hle, hcomp⟩ := complete_count As hA.once r
  have hml : (fs.map Prod.snd).length = (monthFiles As r).length := by rw [List.length_map, hfs.length_eq]
  have hout : ∀ hc : (fs.map Prod.snd).length = days.length,
      (outdated (st.outs (outName j (j.degree L0) r)) days (fs.map Prod.snd) || j.clobber) = true ↔
        Stale j As (j.degree L0) st r := by
    intro hc
    have hit : inputTimes days (fs.map Prod.snd) = fs.map fun f => f.2.mtime := by
      unfold inputTimes; rw [hc]; simp [Function.comp_def]
    unfold outdated Stale
    rw [hit]
    cases ho : st.outs (outName j (j.degree L0) r) with
    | none => simp
    | some x =>
      obtain ⟨t, o⟩ := x
      simp only [Bool.or_eq_true, List.any_map, List.any_eq_true, Function.comp_apply, decide_eq_true_eq,
        reduceCtorEq, false_or, Option.some.injEq, Prod.mk.injEq]
      constructor
      · rintro (⟨f, hf, h⟩ | h)
        · exact Or.inr ⟨t, o, ⟨rfl, rfl⟩, f, hfs.mem_iff.1 hf, h⟩
        · exact Or.inl h
      · rintro (h | ⟨t', o', ⟨rfl, rfl⟩, f, hf, h⟩)
        · exact Or.inr h
        · exact Or.inl ⟨f, hfs.mem_iff.2 hf, h⟩
  have hstep : monthStep j prod nt L0 (As.map Arch.tar) now st r =
      if (fs.map Prod.snd).length = days.length then
        if outdated (st.outs (outName j (j.degree L0) r)) days (fs.map Prod.snd) || j.clobber then
          match monthMean days prod nt L0 (j.degree L0) r.mon (fs.map Prod.snd) with
          | .ok o => ({ outs := Function.update st.outs (outName j (j.degree L0) r) (some (now, o)),
                        dates := st.dates ++ [r] }, .finished)
          | .raises => ({ st with dates := st.dates ++ [r] }, .raised)
          | .hangs => ({ st with dates := st.dates ++ [r] }, .hung)
        else ({ st with dates := st.dates ++ [r] }, .finished)
      else (st, .finished) := by
    unfold monthStep
    rw [hdays]
    simp only [hfind]
    rw [if_neg (by omega)]
    rfl
  refine ⟨?_, ?_, ?_⟩
  · intro hc
    rw [hstep, if_neg]
    intro he
    exact hc (hcomp.1 (by omega))
  · intro hc hs
    have he : (fs.map Prod.snd).length = days.length := by rw [hml, hlen]; exact hcomp.2 hc
    rw [hstep, if_pos he, if_neg]
    rw [hout he]
    exact hs
  · intro hc hs
    have he : (fs.map Prod.snd).length = days.length := by rw [hml, hlen]; exact hcomp.2 hc
    have hD : ∀ D ∈ fs.map Prod.fst, dateOf D ∈ monthDays r ∧ D.hours.length = nt := by
      intro D hD
      obtain ⟨f, hf, rfl⟩ := List.mem_map.1 hD
      have hf := List.mem_filter.1 (hfs.mem_iff.1 hf)
      obtain ⟨a, ha, hfa⟩ := List.mem_flatMap.1 hf.1
      obtain ⟨y, m, rel, tgz, -, -, -, -, -, h⟩ := hA.ok a ha
      exact ⟨by simpa using hf.2, (h f hfa).2.2.2⟩
    have hfile : List.Forall₂ (FileOf prod P) (fs.map Prod.fst) (fs.map Prod.snd) := by
      have : ∀ f ∈ fs, FileOf prod P f.1 f.2 := by
        intro f hf
        have hf := List.mem_filter.1 (hfs.mem_iff.1 hf)
        obtain ⟨a, ha, hfa⟩ := List.mem_flatMap.1 hf.1
        obtain ⟨y, m, rel, tgz, -, -, -, -, -, h⟩ := hA.ok a ha
        exact (h f hfa).1
      clear hD he hout hstep hml hfs hfind
      induction fs with
      | nil => exact List.Forall₂.nil
      | cons f fs ih => exact List.Forall₂.cons (this f (by simp)) (ih fun g hg => this g (by simp [hg]))
    obtain ⟨hb0, hb1⟩ := days_bounds r hr days hdays
    have hfsne : fs.map Prod.fst ≠ [] := by
      intro e
      have : fs = [] := by simpa using e
      rw [this] at he
      simp at he
      exact hne (List.length_eq_zero_iff.1 he.symm)
    have h1 := hr.first
    have h2 := hr.order
    obtain ⟨o, ho, hL, hM, hn, hmo, hst, hsp, htm, hco⟩ := month_mean days h4 prod nt L0 (j.degree L0) r.mon hnt P hP
      (fs.map Prod.fst) hfsne (fs.map Prod.snd) hfile (fun D hD' => (hD D hD').2)
      (fun D hD' => by rw [hmap]; exact (hD D hD').1) fieldTime
      (fun D hD' f hf => by
        have hv := monthDays_valid r _ (hD D hD').1
        have hy := monthDays_year r hr _ (hD D hD').1
        have h40 := hr.not4000
        unfold dateOf Valid at hv
        unfold dateOf at hy
        simp only at hv hy
        exact fieldTime_eq D f (by rw [hy]; exact h40) (by omega) (by omega))
      _ _ hb0 hb1
    have hav : ∀ f, average (fs.map Prod.fst) f = average ((monthFiles As r).map Prod.fst) f :=
      fun f => average_perm _ _ (hfs.map _) f
    refine ⟨o, ⟨⟨hL, hM, hn⟩, hmo, ?_, ?_, ?_, ?_, ?_⟩, ?_⟩
    · rw [hst, dayOf_julian _ _ hr.from1583 h1, if_neg hr.noTurn]
    · rw [hsp, dayOf_julian _ _ hr.from1583 (by omega), if_neg hr.noTurn]
    · rw [htm, hav]
    · intro l m hml hl; rw [(hco l m hml hl).1, hav]
    · intro l m hml hl; rw [(hco l m hml hl).2, hav]
    · rw [hstep, if_pos he, if_pos ((hout he).2 hs), ho]

open scoped Classical in
/-- C86: over all months: the program finishes and lists exactly the complete months, in the order of the dates -/
theorem months_listed (j : Job) (prod : Name) (nt L0 : ℕ) (hnt : nt ≠ 0) (P : List (ℕ × ℕ)) (hP : Layout L0 P)
    (As : List Arch) (hA : Archives prod P nt As) (now : ℚ) (rows : List DateRow) (hr : ∀ r ∈ rows, Inside r) (st : Disk) :
    (monthLoop j prod nt L0 (As.map Arch.tar) now st rows).2 = .finished ∧
      (monthLoop j prod nt L0 (As.map Arch.tar) now st rows).1.dates = st.dates ++ rows.filter fun r => Complete As r := by
  induction rows generalizing st with
  | nil => simp [monthLoop]
  | cons r rows ih =>
    have ih := fun st => ih (fun q hq => hr q (by simp [hq])) st
    obtain ⟨h1, h2, h3⟩ := month_step j prod nt L0 hnt P hP As hA now st r (hr r (by simp))
    rw [monthLoop, List.filter_cons]
    by_cases hc : Complete As r
    · by_cases hs : Stale j As (j.degree L0) st r
      · obtain ⟨o, -, he⟩ := h3 hc hs
        rw [he]
        simp only [if_true, hc, decide_true]
        refine ⟨(ih _).1, ?_⟩
        rw [(ih _).2]
        simp
      · rw [h2 hc hs]
        simp only [if_true, hc, decide_true]
        refine ⟨(ih _).1, ?_⟩
        rw [(ih _).2]
        simp
    · rw [h1 hc]
      simp only [if_true, hc, decide_false, Bool.false_eq_true, if_false]
      exact ih _

/-- C86: the output files after a run: a complete month whose file is missing or outdated has its mean, every other file is as
before (the names of the months are different) -/
theorem months_written (j : Job) (prod : Name) (nt L0 : ℕ) (hnt : nt ≠ 0) (P : List (ℕ × ℕ)) (hP : Layout L0 P)
    (As : List Arch) (hA : Archives prod P nt As) (now : ℚ) (rows : List DateRow) (hr : ∀ r ∈ rows, Inside r)
    (hn : (rows.map (outName j (j.degree L0))).Nodup) (st : Disk) :
    let st1 := (monthLoop j prod nt L0 (As.map Arch.tar) now st rows).1
    (∀ r ∈ rows, Complete As r → Stale j As (j.degree L0) st r →
      ∃ o, IsMean As L0 (j.degree L0) r o ∧ st1.outs (outName j (j.degree L0) r) = some (now, o)) ∧
    (∀ name, (∀ r ∈ rows, name = outName j (j.degree L0) r → ¬ (Complete As r ∧ Stale j As (j.degree L0) st r)) →
      st1.outs name = st.outs name) := by
  induction rows generalizing st with
  | nil => exact ⟨by simp, fun _ _ => rfl⟩
  | cons q rows ih =>
    rw [List.map_cons, List.nodup_cons] at hn
    have hrows : ∀ p ∈ rows, Inside p := fun p hp => hr p (by simp [hp])
    have hne : ∀ r ∈ rows, outName j (j.degree L0) r ≠ outName j (j.degree L0) q := by
      intro r hrm he
      exact hn.1 (List.mem_map.2 ⟨r, hrm, he⟩)
    have hstale : ∀ (st' : Disk) (r : DateRow), st'.outs (outName j (j.degree L0) r) = st.outs (outName j (j.degree L0) r) →
        (Stale j As (j.degree L0) st' r ↔ Stale j As (j.degree L0) st r) := by
      intro st' r he
      unfold Stale
      rw [he]
    obtain ⟨h1, h2, h3⟩ := month_step j prod nt L0 hnt P hP As hA now st q (hr q (by simp))
    simp only
    rw [monthLoop]
    by_cases hw : Complete As q ∧ Stale j As (j.degree L0) st q
    · obtain ⟨o, hmean, he⟩ := h3 hw.1 hw.2
      rw [he]
      simp only [if_true]
      obtain ⟨a, b⟩ := ih hrows hn.2
        ⟨Function.update st.outs (outName j (j.degree L0) q) (some (now, o)), st.dates ++ [q]⟩
      have hout : ∀ r ∈ rows, Function.update st.outs (outName j (j.degree L0) q) (some (now, o)) (outName j (j.degree L0) r) =
          st.outs (outName j (j.degree L0) r) := fun r hrm => Function.update_of_ne (hne r hrm) _ _
      constructor
      · intro r hrm hc hs
        rcases List.mem_cons.1 hrm with rfl | hrm
        · refine ⟨o, hmean, ?_⟩
          rw [b _ (fun p hp he => absurd he.symm (hne p hp))]
          exact Function.update_self ..
        · exact a r hrm hc ((hstale _ r (hout r hrm)).2 hs)
      · intro name hno
        have hnq : name ≠ outName j (j.degree L0) q := fun e => hno q (by simp) e hw
        rw [b name (fun r hrm e hcs => hno r (by simp [hrm]) e ⟨hcs.1, (hstale _ r (hout r hrm)).1 hcs.2⟩)]
        exact Function.update_of_ne hnq _ _
    · have hstep : ∃ ds, monthStep j prod nt L0 (As.map Arch.tar) now st q = ({ st with dates := ds }, .finished) := by
        by_cases hc : Complete As q
        · exact ⟨_, h2 hc fun hs => hw ⟨hc, hs⟩⟩
        · exact ⟨st.dates, h1 hc⟩
      obtain ⟨ds, he⟩ := hstep
      rw [he]
      simp only [if_true]
      obtain ⟨a, b⟩ := ih hrows hn.2 { st with dates := ds }
      constructor
      · intro r hrm hc hs
        rcases List.mem_cons.1 hrm with rfl | hrm
        · exact absurd ⟨hc, hs⟩ hw
        · exact a r hrm hc hs
      · intro name hno
        exact b name fun r hrm e hcs => hno r (by simp [hrm]) e hcs

/-- the file of the month is there and no file of its days is newer -/
def UpToDate (j : Job) (As : List Arch) (LMAX : ℕ) (st : Disk) (r : DateRow) : Prop :=
  ∃ t o, st.outs (outName j LMAX r) = some (t, o) ∧ ∀ f ∈ monthFiles As r, (f.2.mtime : ℚ) ≤ t

/-- C86: after a run later than all input files every complete month has a file that is up to date -/
theorem run_upToDate (j : Job) (prod : Name) (nt L0 : ℕ) (hnt : nt ≠ 0) (P : List (ℕ × ℕ)) (hP : Layout L0 P)
    (As : List Arch) (hA : Archives prod P nt As) (now : ℚ) (hnow : ∀ f ∈ filesOf As, (f.2.mtime : ℚ) ≤ now)
    (rows : List DateRow) (hr : ∀ r ∈ rows, Inside r) (st : Disk) :
    ∀ r ∈ rows, Complete As r →
      UpToDate j As (j.degree L0) (monthLoop j prod nt L0 (As.map Arch.tar) now st rows).1 r := by
  -- a file that is up to date stays so
  have keep : ∀ (rows : List DateRow), (∀ r ∈ rows, Inside r) → ∀ (st : Disk) (r : DateRow),
      UpToDate j As (j.degree L0) st r → UpToDate j As (j.degree L0) (monthLoop j prod nt L0 (As.map Arch.tar) now st rows).1 r := by
    intro rows
    induction rows with
    | nil => intro _ st r h; exact h
    | cons q rows ih =>
      intro hr st r h
      have ih := ih fun q hq => hr q (by simp [hq])
      obtain ⟨h1, h2, h3⟩ := month_step j prod nt L0 hnt P hP As hA now st q (hr q (by simp))
      rw [monthLoop]
      by_cases hc : Complete As q
      · by_cases hs : Stale j As (j.degree L0) st q
        · obtain ⟨o, -, he⟩ := h3 hc hs
          rw [he]
          simp only [if_true]
          apply ih
          obtain ⟨t, o', ho, ht⟩ := h
          unfold UpToDate
          simp only
          by_cases hn : outName j (j.degree L0) r = outName j (j.degree L0) q
          · rw [hn, Function.update_self]
            exact ⟨now, o, rfl, fun f hf => hnow f (List.mem_filter.1 hf).1⟩
          · rw [Function.update_of_ne hn]
            exact ⟨t, o', ho, ht⟩
        · rw [h2 hc hs]
          simp only [if_true]
          exact ih _ _ h
      · rw [h1 hc]
        simp only [if_true]
        exact ih _ _ h
  induction rows generalizing st with
  | nil => intro r hr'; simp at hr'
  | cons q rows ih =>
    intro r hrm hc
    have hrows : ∀ p ∈ rows, Inside p := fun p hp => hr p (by simp [hp])
    obtain ⟨h1, h2, h3⟩ := month_step j prod nt L0 hnt P hP As hA now st q (hr q (by simp))
    rw [monthLoop]
    rcases List.mem_cons.1 hrm with rfl | hrm
    · by_cases hs : Stale j As (j.degree L0) st r
      · obtain ⟨o, -, he⟩ := h3 hc hs
        rw [he]
        simp only [if_true]
        apply keep rows hrows
        exact ⟨now, o, by simp, fun f hf => hnow f (List.mem_filter.1 hf).1⟩
      · rw [h2 hc hs]
        simp only [if_true]
        apply keep rows hrows
        unfold Stale at hs
        push Not at hs
        obtain ⟨hs1, -, hs3⟩ := hs
        obtain ⟨⟨t, o⟩, ho⟩ := Option.ne_none_iff_exists'.1 hs1
        exact ⟨t, o, ho, hs3 t o ho⟩
    · by_cases hcq : Complete As q
      · by_cases hs : Stale j As (j.degree L0) st q
        · obtain ⟨o, -, he⟩ := h3 hcq hs
          rw [he]
          simp only [if_true]
          exact ih hrows _ r hrm hc
        · rw [h2 hcq hs]
          simp only [if_true]
          exact ih hrows _ r hrm hc
      · rw [h1 hcq]
        simp only [if_true]
        exact ih hrows _ r hrm hc

/-- C86: a further run changes no file, if no input is newer and no overwriting is asked for -/
theorem rerun_same (j : Job) (hj : j.clobber = false) (prod : Name) (nt L0 : ℕ) (hnt : nt ≠ 0) (P : List (ℕ × ℕ))
    (hP : Layout L0 P) (As : List Arch) (hA : Archives prod P nt As) (now : ℚ)
    (hnow : ∀ f ∈ filesOf As, (f.2.mtime : ℚ) ≤ now) (again : ℚ) (rows : List DateRow) (hr : ∀ r ∈ rows, Inside r) (st : Disk)
    (ds : List DateRow) :
    let st1 := (monthLoop j prod nt L0 (As.map Arch.tar) now st rows).1
    (monthLoop j prod nt L0 (As.map Arch.tar) again { st1 with dates := ds } rows).1.outs = st1.outs := by
  have hup := run_upToDate j prod nt L0 hnt P hP As hA now hnow rows hr st
  generalize (monthLoop j prod nt L0 (As.map Arch.tar) now st rows).1 = st1 at hup
  simp only
  have : ∀ (rows : List DateRow) (ds : List DateRow), (∀ r ∈ rows, Inside r) →
      (∀ r ∈ rows, Complete As r → UpToDate j As (j.degree L0) st1 r) →
      (monthLoop j prod nt L0 (As.map Arch.tar) again { st1 with dates := ds } rows).1.outs = st1.outs := by
    intro rows
    induction rows with
    | nil => intro ds _ _; rfl
    | cons q rows ih =>
      intro ds hr hup
      have ih := fun ds => ih ds (fun p hp => hr p (by simp [hp])) (fun p hp => hup p (by simp [hp]))
      obtain ⟨h1, h2, -⟩ := month_step j prod nt L0 hnt P hP As hA again { st1 with dates := ds } q (hr q (by simp))
      rw [monthLoop]
      by_cases hc : Complete As q
      · have hs : ¬ Stale j As (j.degree L0) { st1 with dates := ds } q := by
          obtain ⟨t, o, ho, ht⟩ := hup q (by simp) hc
          rintro (h | h | ⟨t', o', h, f, hf, hlt⟩)
          · rw [ho] at h; simp at h
          · rw [hj] at h; simp at h
          · rw [ho] at h
            simp only [Option.some.injEq, Prod.mk.injEq] at h
            have := ht f hf
            rw [h.1] at this
            linarith
        rw [h2 hc hs]
        simp only [if_true]
        exact ih _
      · rw [h1 hc]
        simp only [if_true]
        exact ih _
  exact this rows ds hr hup

/-- C86 (deviation): at the first month that crosses from one year into the next the program stops with an exception; the
months after it are not treated -/
theorem across_stops (j : Job) (prod : Name) (nt L0 : ℕ) (tars : List Tar) (now : ℚ) (st : Disk) (pre post : List DateRow)
    (r : DateRow) (hr : r.styr ≠ r.endyr) (hpre : (monthLoop j prod nt L0 tars now st pre).2 = .finished) :
    monthLoop j prod nt L0 tars now st (pre ++ r :: post) = ((monthLoop j prod nt L0 tars now st pre).1, .raised) := by
  induction pre generalizing st with
  | nil =>
    have : monthStep j prod nt L0 tars now st r = (st, .raised) := by
      unfold monthStep
      rw [days_across r hr]
    simp [monthLoop, this]
  | cons q pre ih =>
    rw [List.cons_append, monthLoop]
    by_cases hs : (monthStep j prod nt L0 tars now st q).2 = .finished
    · rw [monthLoop] at hpre
      simp only [hs, if_true] at hpre
      have e : monthLoop j prod nt L0 tars now st (q :: pre) =
          monthLoop j prod nt L0 tars now (monthStep j prod nt L0 tars now st q).1 pre := by
        rw [monthLoop]; simp only [hs, if_true]
      rw [if_pos hs, ih _ hpre, e]
    · exact absurd (by simpa [monthLoop, hs] using hpre) hs

/-- C86 (deviation): if a file of a month has fewer fields of the product than the release should have, and nothing has to be
read before it, the program never ends -/
theorem truncated_hangs (days : List ℚ) (h4 : FourDigits days) (prod : Name) (P : List (ℕ × ℕ)) (nt L0 LMAX gm : ℕ)
    (hP : Layout L0 P) (D : Day) (hD : (((D.y : ℤ), (D.m : ℤ), (D.d : ℤ)) : ℤ × ℤ × ℤ) ∈ days.map dayOf) (mem : Member)
    (rest : List Member) (text : List Line) (hshort : D.hours.length < nt) (hy : D.y < 10000) (hm : D.m < 100) (hd : D.d < 100)
    (rel : Name) (hrel : IsDigits rel) (gz : Bool) (hname : mem.name = dailyName D.y D.m D.d rel gz)
    (ht : DayText prod P.length text (D.hours.map fun f => (⟨f.h, rowsOf P f⟩ : Block)) mem.text)
    (hno : ∀ line ∈ text, ¬ Headed prod line) :
    monthMean days prod nt L0 LMAX gm (mem :: rest) = .hangs := by
  obtain ⟨more, hmore⟩ : ∃ more, nt = D.hours.length + (more + 1) := ⟨nt - D.hours.length - 1, by omega⟩
  have hb := blocks_hang prod P.length more text _ _ ht hno
  rw [List.length_map, ← hmore] at hb
  unfold monthMean
  rw [readMembers, hname, daily_date days h4 D.y D.m D.d hy hm hd rel hrel gz hD]
  simp only
  rw [← layout_length L0 P hP, hb]

end Verif.Dealias
