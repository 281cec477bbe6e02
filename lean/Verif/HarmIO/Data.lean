import Verif.HarmIO.DataProps

/-!
# C84: theorems on spherical harmonics in netCDF4 and HDF5 files
-/
set_option linter.unusedSectionVars false
namespace Verif.HarmIO.Data
open Verif.Harmonics
open Verif (lmPairs mem_lmPairs)
open Verif.SpatialIO.Data (Attrs put addRoot lookup_put)
open Verif.Time (adjustMonths)
variable {K : Type} [Field K]

/-- two objects have the same coefficients where the order is not above the degree, and the second has zeros elsewhere -/
def SameCoefs (a b : Harm K) (nt : ℕ) : Prop :=
  b.lmax = a.lmax ∧ b.mmax = a.mmax ∧ ∀ l m t, l ≤ a.lmax → m ≤ a.mmax → t < nt →
    b.clm l m t = (if m ≤ l then a.clm l m t else 0) ∧ b.slm l m t = (if m ≤ l then a.slm l m t else 0)

/-! ## Names -/

theorem lookup_none_of {α : Type} (l : List (String × α)) (k : String) (h : k ∉ l.map Prod.fst) : l.lookup k = none := by
  induction l with
  | nil => rfl
  | cons p t ih =>
    obtain ⟨a, b⟩ := p
    simp only [List.map_cons, List.mem_cons, not_or] at h
    rw [List.lookup_cons, beq_eq_false_iff_ne.2 h.1]
    exact ih h.2

theorem write_inv (hdf5 : Bool) (w : WOpts) (old : Option (File K)) (o o' : Obj K) (file : File K)
    (h : write hdf5 w old o = .ok (o', file)) :
    ∃ f at_ f1 r, flat o.h = .ok f ∧ writeAttrs w o.root = .ok at_ ∧
      addDims hdf5 w.date f (if w.clobber then ⟨[], [], []⟩ else old.getD ⟨[], [], []⟩) = .ok f1 ∧
      at_.lookup "ROOT" = some r ∧
      file = { f1 with vars := f1.vars ++ newVars w.date at_ f w.used, root := f1.root ++ r } ∧
      (∀ p ∈ w.used, (at_.lookup p.2).isSome) ∧
      o' = (if w.attributes = none ∧ o.root ≠ [] then { o with root := r } else o) := by
  unfold write at h
  split at h
  · simp at h
  · simp only [bind, Except.bind] at h
    split at h
    · simp at h
    · rename_i f hf
      split at h
      · simp at h
      · rename_i at_ ha
        split at h
        · simp at h
        · rename_i f1 h1
          split at h
          · simp at h
          · rename_i f2 h2
            split at h
            · simp at h
            · rename_i r hr
              simp only [pure, Except.pure, Except.ok.injEq, Prod.mk.injEq] at h
              obtain ⟨e, e'⟩ := addVars_inv hdf5 w.date at_ f w.used f1 f2 h2
              refine ⟨f, at_, f1, r, hf, ha, h1, hr, ?_, e', h.1.symm⟩
              rw [← h.2, e]

theorem addDims_vars (hdf5 date : Bool) (f : Flat K) (file f1 : File K) (h : addDims hdf5 date f file = .ok f1) :
    f1.vars = file.vars ∧ f1.root = file.root := by
  unfold addDims at h
  split at h
  · simp only [Except.ok.injEq] at h; subst h; exact ⟨rfl, rfl⟩
  · split at h
    · simp at h
    · simp only [Except.ok.injEq] at h; subst h; exact ⟨rfl, rfl⟩

/-- the variables of a new file have the names of the mapping -/
theorem write_names (hdf5 : Bool) (w : WOpts) (old : Option (File K)) (o o' : Obj K) (file : File K)
    (hc : w.clobber = true ∨ old = none) (h : write hdf5 w old o = .ok (o', file)) :
    file.vars.map Prod.fst = w.used.map Prod.snd := by
  obtain ⟨f, at_, f1, r, _, _, h3, _, h5, _⟩ := write_inv hdf5 w old o o' file h
  have hnew : (if w.clobber then (⟨[], [], []⟩ : File K) else old.getD ⟨[], [], []⟩) = ⟨[], [], []⟩ := by
    rcases hc with h | h
    · rw [if_pos h]
    · rw [h]; simp
  rw [hnew] at h3
  rw [h5]
  simp [(addDims_vars _ _ _ _ _ h3).1, newVars]

theorem bind_ok {α β : Type} {x : Except Err α} {f : α → Except Err β} {b : β} (h : x >>= f = .ok b) :
    ∃ a, x = .ok a ∧ f a = .ok b := by
  cases x with
  | error e => simp [bind, Except.bind] at h
  | ok a => exact ⟨a, rfl, h⟩

theorem getVar_needs {α : Type} (f : File K) (k : String) (g : Val K → Except Err α) (a : α)
    (h : getVar f k >>= g = .ok a) : f.vars.lookup k ≠ none := by
  obtain ⟨v, h1, _⟩ := bind_ok h
  unfold getVar at h1
  intro hn
  rw [hn] at h1
  simp at h1

/-- a file that can be read has variables of the standard names -/
theorem read_needs (date : Bool) (f : File K) (out : Out K) (h : read date f = .ok out) (k : String) (hk : k ∈ fields date) :
    f.vars.lookup k ≠ none := by
  unfold read at h
  obtain ⟨ls, a1, h⟩ := bind_ok h
  obtain ⟨ms, a2, h⟩ := bind_ok h
  obtain ⟨c, a3, h⟩ := bind_ok h
  obtain ⟨s, a4, h⟩ := bind_ok h
  obtain ⟨tg, a5, h⟩ := bind_ok h
  unfold fields at hk
  cases date with
  | false =>
    simp only [Bool.false_eq_true, if_false, List.append_nil, List.mem_cons, List.not_mem_nil, or_false] at hk
    rcases hk with rfl | rfl | rfl | rfl
    exacts [getVar_needs _ _ _ _ a1, getVar_needs _ _ _ _ a2, getVar_needs _ _ _ _ a3, getVar_needs _ _ _ _ a4]
  | true =>
    unfold getDates at a5
    rw [if_pos rfl] at a5
    obtain ⟨t, b1, a5⟩ := bind_ok a5
    obtain ⟨g, b2, a5⟩ := bind_ok a5
    simp only [if_true, List.cons_append, List.nil_append, List.mem_cons, List.not_mem_nil, or_false] at hk
    rcases hk with rfl | rfl | rfl | rfl | rfl | rfl
    exacts [getVar_needs _ _ _ _ a1, getVar_needs _ _ _ _ a2, getVar_needs _ _ _ _ a3, getVar_needs _ _ _ _ a4,
      getVar_needs _ _ _ _ b1, getVar_needs _ _ _ _ b2]

/-- a file written with another name for one of the variables cannot be read again: the readers know only the standard
names -/
theorem dataset_other_names (hdf5 : Bool) (w : WOpts) (old : Option (File K)) (o o' : Obj K) (file : File K)
    (hc : w.clobber = true ∨ old = none) (h : write hdf5 w old o = .ok (o', file)) (date : Bool) (k : String)
    (hk : k ∈ fields date) (hn : k ∉ w.used.map Prod.snd) (out : Out K) : read date file ≠ .ok out := by
  intro hr
  apply read_needs date file out hr k hk
  apply lookup_none_of
  rw [write_names hdf5 w old o o' file hc h]
  exact hn

/-! ## Content -/

/-- an object or series with dates written to a new file and read back has the same degrees, orders, coefficients and
dates; a series of a single date becomes a single field -/
theorem dataset_round_trip (hdf5 : Bool) (w : WOpts) (hu : Usual w) (hd : w.date = true) (old : Option (File K)) (o : Obj K)
    (hm : o.h.mmax ≤ o.h.lmax) (hwf : o.h.WF) (hc : w.clobber = true ∨ old = none) :
    ∃ o' file out, write hdf5 w old o = .ok (o', file) ∧ o'.h = o.h ∧ read true file = .ok out ∧
      SameCoefs o.h out.h (o.h.nt.getD 1) ∧ out.h.time = o.h.time ∧ out.h.month = adjustMonths o.h.month ∧
      out.h.nt = (if o.h.nt.getD 1 = 1 then none else o.h.nt) ∧ out.ndim = (if o.h.nt.getD 1 = 1 then 2 else 3) ∧
      (o.h.month.Nodup → out.h.month = o.h.month) := by
  have hf : Fits w.date o.h := ⟨fun _ => hwf, fun h => by rw [hd] at h; simp at h⟩
  obtain ⟨file, k1, k2, k3⟩ := write_spec hdf5 w hu old o hm hf hc
  rw [hd] at k3 hf
  obtain ⟨out, g, r1, r2, r3, r4, r5, r6, r7, r8, r9, _⟩ := read_spec true o.h hm hf file (fun p => varAttrs (stdAttrs w p)) k3
  simp only [if_true] at r6 r7 r8
  have hsq : squeezeN g = ({ g with nt := if o.h.nt.getD 1 = 1 then none else o.h.nt }, if o.h.nt.getD 1 = 1 then 2 else 3) := by
    unfold squeezeN
    rw [r6]
    split
    · rename_i h1
      rw [Option.some.injEq] at h1
      rw [if_pos h1, if_pos h1]
    · rename_i h1 h2
      rw [Option.some.injEq] at h2
      have hne : o.h.nt.getD 1 ≠ 1 := by intro e; exact h1 (by rw [← h2, e])
      rw [if_neg hne, if_neg hne]
      have : o.h.nt = some (o.h.nt.getD 1) := by
        cases hnt : o.h.nt with
        | none => rw [hnt] at hne; simp at hne
        | some n => rfl
      rw [this, ← r6]
    · rename_i h1
      simp at h1
  rw [hsq] at r2 r3
  refine ⟨_, file, out, k1, ?_, r1, ?_, ?_, ?_, ?_, r3, ?_⟩
  · split <;> rfl
  · rw [r2]
    exact ⟨r4, r5, fun l m t h1 h2 _ => r9 l m t h1 h2⟩
  · rw [r2]; exact r7
  · rw [r2]; exact r8
  · rw [r2]
  · intro hn
    rw [r2]
    exact r8.trans (Verif.Time.adjustMonths_nodup _ hn)

/-- a month with three or more fields is lost -/
theorem dataset_repeated_months (hdf5 : Bool) (w : WOpts) (hu : Usual w) (hd : w.date = true) (old : Option (File K)) (o : Obj K)
    (hm : o.h.mmax ≤ o.h.lmax) (hwf : o.h.WF) (hc : w.clobber = true ∨ old = none) (i : ℕ) (hi : i < o.h.month.length)
    (h3 : 3 ≤ o.h.month.count (o.h.month.getD i 0)) :
    ∃ o' file out, write hdf5 w old o = .ok (o', file) ∧ read true file = .ok out ∧ out.h.month.getD i 0 = 0 := by
  obtain ⟨o', file, out, k1, _, k2, _, _, k3, _⟩ := dataset_round_trip hdf5 w hu hd old o hm hwf hc
  exact ⟨o', file, out, k1, k2, by rw [k3]; exact Verif.Time.adjust_triple _ i hi h3⟩

/-- a single field written and read without dates keeps its coefficients, unless it has order zero only: then the arrays
lose the dimension of the orders -/
theorem dataset_undated (hdf5 : Bool) (w : WOpts) (hu : Usual w) (hd : w.date = false) (old : Option (File K)) (o : Obj K)
    (hm : o.h.mmax ≤ o.h.lmax) (hn : o.h.nt = none) (hc : w.clobber = true ∨ old = none) :
    ∃ o' file out, write hdf5 w old o = .ok (o', file) ∧ o'.h = o.h ∧ read false file = .ok out ∧ SameCoefs o.h out.h 1 ∧
      out.h.nt = none ∧ out.h.time = [] ∧ out.h.month = [] ∧ out.ndim = (if o.h.mmax = 0 then 1 else 2) ∧
      (∀ out', read true file ≠ .ok out') := by
  have hf : Fits w.date o.h := ⟨fun h => by rw [hd] at h; simp at h, fun _ => hn⟩
  obtain ⟨file, k1, k2, k3⟩ := write_spec hdf5 w hu old o hm hf hc
  rw [hd] at k3 hf
  obtain ⟨out, g, r1, r2, r3, r4, r5, r6, r7, r8, r9, _⟩ := read_spec false o.h hm hf file (fun p => varAttrs (stdAttrs w p)) k3
  simp only [Bool.false_eq_true, if_false] at r6 r7 r8
  have hsq : squeezeN g = (g, if o.h.mmax = 0 then 1 else 2) := by
    unfold squeezeN
    rw [r6, r5]
  rw [hsq] at r2 r3
  refine ⟨_, file, out, k1, by split <;> rfl, r1, ?_, by rw [r2]; exact r6, by rw [r2]; exact r7, by rw [r2]; exact r8, r3, ?_⟩
  · rw [r2]
    exact ⟨r4, r5, fun l m t h1 h2 _ => r9 l m t h1 h2⟩
  · intro out' h
    have hk := read_needs true file out' h "time" (by simp [fields])
    have hn := write_names hdf5 w old o _ file hc k1
    rw [used_usual w hu, hd] at hn
    exact hk (lookup_none_of file.vars "time" (by rw [hn]; simp [stdUsed]))

/-! ## Existing files -/

theorem addDims_lm (date : Bool) (f : Flat K) (file f1 : File K) (h : addDims false date f file = .ok f1) :
    (f1.dims.lookup "lm").isSome := by
  unfold addDims at h
  rw [if_neg (by simp)] at h
  split at h
  · simp at h
  · simp only [Except.ok.injEq] at h
    rw [← h]
    simp only
    rw [List.lookup_append]
    cases (List.lookup "lm" file.dims) <;> simp

/-- without clobber a file written before is not touched: writing fails -/
theorem dataset_no_clobber (hdf5 : Bool) (w w' : WOpts) (old : Option (File K)) (o o' o2 : Obj K) (file : File K)
    (h : write hdf5 w old o = .ok (o', file)) (hw : w'.clobber = false) (r : Obj K × File K) :
    write hdf5 w' (some file) o2 ≠ .ok r := by
  cases hdf5 with
  | true => unfold write; rw [if_pos ⟨rfl, hw, rfl⟩]; simp
  | false =>
    intro hr
    obtain ⟨r1, r2⟩ := r
    obtain ⟨f, at_, f1, r0, _, _, h3, _, h5, _⟩ := write_inv false w old o o' file h
    obtain ⟨f', at', f1', r', _, _, h3', _⟩ := write_inv false w' (some file) o2 r1 r2 hr
    rw [hw] at h3'
    simp only [Bool.false_eq_true, if_false, Option.getD_some] at h3'
    unfold addDims at h3'
    rw [if_neg (by simp), if_pos] at h3'
    · simp at h3'
    · left
      rw [h5]
      exact addDims_lm _ _ _ f1 h3

/-! ## Attributes -/

/-- a text that is not empty -/
def Given (x : Option String) : Prop := x ≠ none ∧ x ≠ some ""

theorem rootAttrs_lookup (w : WOpts) (own : Attrs) (k : String) [Decidable (Given w.reference)] [Decidable (Given w.source)]
    [Decidable (Given w.title)] :
    (rootAttrs w own).lookup k =
      if k = "reference" ∧ Given w.reference then some w.reference
      else if k = "source" ∧ Given w.source then some w.source
      else if k = "title" ∧ Given w.title then some w.title
      else own.lookup k := by
  have add : ∀ (n : String) (v : Option String) (a : Attrs) [Decidable (Given v)],
      (setAttr n v a).lookup k = if k = n ∧ Given v then some v else a.lookup k := by
    intro n v a _
    unfold setAttr
    cases v with
    | none => rw [if_neg]; rintro ⟨_, h, _⟩; exact h rfl
    | some t =>
      simp only
      by_cases ht : t = ""
      · rw [if_pos ht, if_neg]; rintro ⟨_, _, h⟩; exact h (by rw [ht])
      · rw [if_neg ht, lookup_put]
        have : Given (some t) := ⟨by simp, by simpa using ht⟩
        by_cases hk : k = n
        · rw [if_pos hk, if_pos ⟨hk, this⟩]
        · rw [if_neg hk, if_neg (fun h => hk h.1)]
  unfold rootAttrs
  rw [add, add, add]

theorem unitsName_std (k : String) (a b : Option String) (u n : String) :
    (unitsName (varAttrs [("long_name", a), ("units", b)])).map (fun q => (k, q)) = some (k, u, n) ↔
      ([("long_name", a), ("units", b)] : Attrs).lookup "units" = some (some u) ∧
        ([("long_name", a), ("units", b)] : Attrs).lookup "long_name" = some (some n) ∧ u ≠ "" ∧ n ≠ "" := by
  have e1 : ([("long_name", a), ("units", b)] : Attrs).lookup "units" = some b := by simp [List.lookup]
  have e2 : ([("long_name", a), ("units", b)] : Attrs).lookup "long_name" = some a := by simp [List.lookup]
  rw [e1, e2]
  by_cases ha : a ≠ none ∧ a ≠ some ""
  · by_cases hb : b ≠ none ∧ b ≠ some ""
    · have : varAttrs [("long_name", a), ("units", b)] = [("long_name", a), ("units", b)] := by
        simp [varAttrs, ha, hb]
      rw [this]
      unfold unitsName
      rw [e1, e2]
      obtain ⟨x, rfl⟩ := Option.ne_none_iff_exists'.1 ha.1
      obtain ⟨y, rfl⟩ := Option.ne_none_iff_exists'.1 hb.1
      simp at ha hb ⊢
      rintro rfl rfl
      exact ⟨hb, ha⟩
    · have : varAttrs [("long_name", a), ("units", b)] = [("long_name", a)] := by
        simp [varAttrs, List.filter_cons, ha]
        intro h1; by_contra h2; exact hb ⟨h1, h2⟩
      rw [this]
      unfold unitsName
      simp [List.lookup]
      intro h1 _ h3
      exact absurd ⟨by rw [h1]; simp, by rw [h1]; simpa using h3⟩ hb
  · have : (varAttrs [("long_name", a), ("units", b)]).lookup "long_name" = none := by
      unfold varAttrs
      rw [List.filter_cons, if_neg (by simp; intro h1; by_contra h2; exact ha ⟨h1, h2⟩)]
      rw [List.filter_cons]
      split <;> simp [List.lookup]
    unfold unitsName
    rw [this]
    simp
    intro _ h1 _
    by_contra h3
    exact ha ⟨by rw [h1]; simp, by rw [h1]; simpa using h3⟩

open scoped Classical in
/-- global attributes of the object are found in the file, with title, source and reference given to the writer; units
and description of every variable are read if both are not empty; writing puts title, source and reference into the
attributes of the object itself if it has any -/
theorem dataset_attributes (hdf5 : Bool) (w : WOpts) (hu : Usual w) (old : Option (File K)) (o : Obj K)
    (hm : o.h.mmax ≤ o.h.lmax) (hf : Fits w.date o.h) (hc : w.clobber = true ∨ old = none) :
    ∃ o' file out, write hdf5 w old o = .ok (o', file) ∧ read w.date file = .ok out ∧
      (∀ k, out.root.lookup k =
        if k = "reference" ∧ Given w.reference then some w.reference
        else if k = "source" ∧ Given w.source then some w.source
        else if k = "title" ∧ Given w.title then some w.title
        else o.root.lookup k) ∧
      (o.root ≠ [] → o'.root = out.root) ∧ (o.root = [] → o'.root = []) ∧
      (∀ p ∈ stdUsed w.date, ∀ u n, (p.2, u, n) ∈ out.attrs ↔
        (stdAttrs w p.1).lookup "units" = some (some u) ∧ (stdAttrs w p.1).lookup "long_name" = some (some n) ∧ u ≠ "" ∧ n ≠ "") := by
  obtain ⟨file, k1, k2, k3⟩ := write_spec hdf5 w hu old o hm hf hc
  obtain ⟨out, g, r1, _, _, _, _, _, _, _, _, r10, r11⟩ :=
    read_spec w.date o.h hm hf file (fun p => varAttrs (stdAttrs w p)) k3
  refine ⟨_, file, out, k1, r1, ?_, ?_, ?_, ?_⟩
  · intro k
    rw [r10, k2, rootAttrs_lookup]
  · intro h; rw [if_pos h, r10, k2]
  · intro h; rw [if_neg (by simpa using h)]; exact h
  · intro p hp u n
    have hget := k3 p hp
    have hread : readAttrs file p.2 = (unitsName (varAttrs (stdAttrs w p.1))).map fun q => (p.2, q) := by
      unfold readAttrs; rw [hget]; rfl
    have hmem : (p.2, u, n) ∈ out.attrs ↔ readAttrs file p.2 = some (p.2, u, n) := by
      rw [r11, List.mem_filterMap]
      constructor
      · rintro ⟨k, _, hk⟩
        have : k = p.2 := by
          unfold readAttrs at hk
          simp only [Option.bind_eq_some_iff, Option.map_eq_some_iff] at hk
          obtain ⟨_, _, _, _, h⟩ := hk
          exact (Prod.mk.inj h).1
        rw [← this]; exact this ▸ hk
      · intro h
        refine ⟨p.2, ?_, h⟩
        rcases mem_stdUsed _ p hp with rfl | rfl | rfl | rfl | ⟨h, rfl | rfl⟩ <;> simp [fields, *]
    rw [hmem, hread]
    have hstd : ∃ a b : Option String, stdAttrs w p.1 = [("long_name", a), ("units", b)] := by
      cases p.1 <;> exact ⟨_, _, rfl⟩
    obtain ⟨a, b, e⟩ := hstd
    rw [e]
    exact unitsName_std p.2 a b u n

/-- attributes given for every field by the name of the field are not used if the field is written under another name:
writing fails -/
theorem dataset_attributes_keys (hdf5 : Bool) (w : WOpts) (old : Option (File K)) (o : Obj K) (a : List (String × Attrs))
    (ha : w.attributes = some a) (hall : ∀ p ∈ w.used, (a.lookup p.1.name).isSome) (p : Fld × String) (hp : p ∈ w.used)
    (hn : a.lookup p.2 = none) (hr : p.2 ≠ "ROOT") (r : Obj K × File K) : write hdf5 w old o ≠ .ok r := by
  intro h
  obtain ⟨r1, r2⟩ := r
  obtain ⟨f, at_, f1, r0, _, h2, _, _, _, h6, _⟩ := write_inv hdf5 w old o r1 r2 h
  have := h6 p hp
  unfold writeAttrs at h2
  simp only [ha, Option.getD_some] at h2
  rw [if_pos (List.all_eq_true.2 hall)] at h2
  simp only [Except.ok.injEq] at h2
  rw [← h2, addRoot_other _ _ _ _ hr, addRoot_other _ _ _ _ hr, addRoot_other _ _ _ _ hr, hn] at this
  simp at this

/-! ## Examples -/

/-- two dates of degree and order one -/
def exHarm : Harm ℚ where
  lmax := 1
  mmax := 1
  nt := some 2
  clm l m t := l + 2 * m + 3 * t
  slm _ m t := m + t
  time := [2004, 2004.1]
  month := [25, 26]

def exObj : Obj ℚ := ⟨exHarm, [("title", some "old")]⟩

theorem exHarm_wf : exHarm.WF := ⟨rfl, rfl⟩

example := dataset_round_trip true {} ⟨rfl, rfl, rfl⟩ rfl (some ⟨[], [], []⟩) exObj (by decide) exHarm_wf (Or.inl rfl)

/-- read back: the coefficient of degree 1 and order 1 at the second date -/
example : ∃ o' file out, write false {} none exObj = .ok (o', file) ∧ read true file = .ok out ∧ out.h.clm 1 1 1 = 6 ∧
    out.h.clm 0 1 1 = 0 ∧ out.h.month = [25, 26] := by
  obtain ⟨o', file, out, h1, _, h2, h3, _, _, _, _, h4⟩ :=
    dataset_round_trip false {} ⟨rfl, rfl, rfl⟩ rfl none exObj (by decide) exHarm_wf (Or.inl rfl)
  refine ⟨o', file, out, h1, h2, ?_, ?_, h4 (by decide)⟩
  · rw [(h3.2.2 1 1 1 (by decide) (by decide) (by decide)).1]; norm_num [exObj, exHarm]
  · rw [(h3.2.2 0 1 1 (by decide) (by decide) (by decide)).1]; norm_num

/-- three fields of the same month -/
def exTriple : Harm ℚ := { exHarm with nt := some 3, time := [2004, 2004.01, 2004.02], month := [25, 25, 25] }

example := dataset_repeated_months false {} ⟨rfl, rfl, rfl⟩ rfl none ⟨exTriple, []⟩ (by decide) ⟨rfl, rfl⟩ (Or.inl rfl) 1
  (by decide) (by decide)

/-- zonal coefficients only -/
def exZonal : Harm ℚ := { exHarm with nt := none, mmax := 0, time := [2004], month := [25] }

example : ∃ o' file out, write true { date := false } none ⟨exZonal, []⟩ = .ok (o', file) ∧ read false file = .ok out ∧
    out.ndim = 1 := by
  obtain ⟨o', file, out, h1, _, h2, _, _, _, _, h3, _⟩ :=
    dataset_undated true { date := false } ⟨rfl, rfl, rfl⟩ rfl none ⟨exZonal, []⟩ (by decide) rfl (Or.inl rfl)
  exact ⟨o', file, out, h1, h2, h3⟩

/-- the months under another name: the file is written, but not read -/
example : ∃ o' file, write false { monthsName := "months" } none exObj = .ok (o', file) ∧ ∀ out, read true file ≠ .ok out := by
  refine ⟨_, _, rfl, ?_⟩
  exact dataset_other_names false { monthsName := "months" } none exObj _ _ (Or.inl rfl) rfl true "month" (by decide) (by decide)

example : ∃ o' file, write false {} none exObj = .ok (o', file) ∧
    ∀ r, write false { clobber := false } (some file) exObj ≠ .ok r := by
  obtain ⟨o', file, out, h1, _⟩ :=
    dataset_round_trip false {} ⟨rfl, rfl, rfl⟩ rfl none exObj (by decide) exHarm_wf (Or.inl rfl)
  exact ⟨o', file, h1, dataset_no_clobber false {} _ none exObj o' exObj file h1 rfl⟩

example : ∃ o' file out, write false { title := some "new" } none exObj = .ok (o', file) ∧ read true file = .ok out ∧
    out.root.lookup "title" = some (some "new") ∧ o'.root = out.root ∧
    ("clm", "Geodesy_Normalization", "cosine_spherical_harmonics") ∈ out.attrs := by
  obtain ⟨o', file, out, h1, h2, h3, h4, _, h5⟩ := dataset_attributes false { title := some "new" } ⟨rfl, rfl, rfl⟩ none exObj
    (by decide) ⟨fun _ => exHarm_wf, by simp⟩ (Or.inl rfl)
  refine ⟨o', file, out, h1, h2, ?_, h4 (by simp [exObj]), ?_⟩
  · rw [h3]
    simp [Given]
  · exact (h5 (.clm, "clm") (by simp [stdUsed]) _ _).2 ⟨by simp [stdAttrs, List.lookup], by simp [stdAttrs], by decide, by decide⟩

/-- attributes for all fields, the cosine coefficients under another name -/
def exKeys : WOpts where
  mapping := [(.l, "l"), (.m, "m"), (.clm, "cosine"), (.slm, "slm")]
  date := false
  attributes := some [("ROOT", []), ("l", []), ("m", []), ("clm", []), ("slm", [])]

example := dataset_attributes_keys true exKeys none exObj _ rfl (by decide) (.clm, "cosine") (by decide) (by decide) (by decide)

end Verif.HarmIO.Data
