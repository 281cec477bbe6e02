import Verif.HarmIO.Dataset
import Verif.Harmonics.Flatten
import Verif.SpatialIO.Data
import Verif.Time.Adjust

/-!
# C84: what the netCDF4 and HDF5 files of spherical harmonics contain
-/
set_option linter.unusedSectionVars false
namespace Verif.HarmIO.Data
open Verif.Harmonics
open Verif (lmPairs mem_lmPairs)
open Verif.SpatialIO.Data (Attrs put addRoot lookup_put lookup_snoc lookup_snoc_ne)
open Verif.Time (adjustMonths)
variable {K : Type} [Field K]

/-- variables that are added one after the other -/
def newVars (date : Bool) (at_ : List (String × Attrs)) (f : Flat K) (ps : List (Fld × String)) : List (String × Var K) :=
  ps.map fun p => (p.2, ⟨value date f p.1, varAttrs ((at_.lookup p.2).getD [])⟩)

theorem addVar_inv (hdf5 date : Bool) (at_ : List (String × Attrs)) (f : Flat K) (file file' : File K) (p : Fld × String)
    (h : addVar hdf5 date at_ f file p = .ok file') :
    file' = { file with vars := file.vars ++ newVars date at_ f [p] } ∧ file.vars.lookup p.2 = none ∧
      (at_.lookup p.2).isSome := by
  unfold addVar at h
  split at h
  · simp at h
  · split at h
    · simp at h
    · split at h
      · simp at h
      · rename_i h3
        split at h
        · simp at h
        · rename_i a ha
          simp only [Except.ok.injEq] at h
          refine ⟨?_, by rwa [Option.not_isSome_iff_eq_none] at h3, by simp [ha]⟩
          rw [← h]
          simp [newVars, ha]

theorem addVars_inv (hdf5 date : Bool) (at_ : List (String × Attrs)) (f : Flat K) (ps : List (Fld × String)) :
    ∀ (file file' : File K), ps.foldlM (addVar hdf5 date at_ f) file = .ok file' →
      file' = { file with vars := file.vars ++ newVars date at_ f ps } ∧ ∀ p ∈ ps, (at_.lookup p.2).isSome := by
  induction ps with
  | nil =>
    intro file file' h
    simp [pure, Except.pure] at h
    subst h
    simp [newVars]
  | cons p ps ih =>
    intro file file' h
    rw [List.foldlM_cons] at h
    simp only [bind, Except.bind] at h
    split at h
    · simp at h
    · rename_i f1 h1
      obtain ⟨e1, _, e3⟩ := addVar_inv hdf5 date at_ f file f1 p h1
      obtain ⟨e2, e4⟩ := ih f1 file' h
      refine ⟨?_, ?_⟩
      · rw [e2, e1]; simp [newVars]
      · intro q hq
        rcases List.mem_cons.1 hq with rfl | hq
        · exact e3
        · exact e4 q hq

theorem lookup_append_none {α : Type} (l r : List (String × α)) (k : String) (hl : l.lookup k = none) :
    (l ++ r).lookup k = r.lookup k := by
  rw [List.lookup_append, hl]; rfl

/-- variables are added if their names are new and different, and they have attributes -/
theorem addVars_ok (hdf5 date : Bool) (at_ : List (String × Attrs)) (f : Flat K) (ps : List (Fld × String)) :
    ∀ (file : File K), (ps.map Prod.snd).Nodup → (∀ p ∈ ps, file.vars.lookup p.2 = none) →
      (∀ p ∈ ps, (at_.lookup p.2).isSome) → (∀ p ∈ ps, hdf5 = true ∨ fits date f p.1 = true) →
      (∀ p ∈ ps, date = true ∨ p.1 ≠ .time ∧ p.1 ≠ .month) →
      ps.foldlM (addVar hdf5 date at_ f) file = .ok { file with vars := file.vars ++ newVars date at_ f ps } := by
  induction ps with
  | nil => intro file _ _ _ _ _; simp [newVars, pure, Except.pure]
  | cons p ps ih =>
    intro file h1 h2 h3 h4 h5
    rw [List.foldlM_cons]
    obtain ⟨a, ha⟩ := Option.isSome_iff_exists.1 (h3 p (by simp))
    have e : addVar hdf5 date at_ f file p = .ok { file with vars := file.vars ++ newVars date at_ f [p] } := by
      unfold addVar
      rw [if_neg, if_neg, if_neg, ha]
      · simp [newVars, ha]
      · simp [h2 p (by simp)]
      · rintro ⟨a1, a2⟩
        rcases h5 p (by simp) with h | h
        · rw [h] at a1; simp at a1
        · rcases a2 with a2 | a2
          · exact h.1 a2
          · exact h.2 a2
      · rintro ⟨a1, a2⟩
        rcases h4 p (by simp) with h | h
        · rw [h] at a1; simp at a1
        · exact a2 h
    rw [e]
    simp only [bind, Except.bind]
    simp only [List.map_cons, List.nodup_cons] at h1
    rw [ih _ h1.2 ?_ (fun q hq => h3 q (by simp [hq])) (fun q hq => h4 q (by simp [hq])) (fun q hq => h5 q (by simp [hq]))]
    · simp [newVars]
    · intro q hq
      have hne : q.2 ≠ p.2 := fun h => h1.1 (h ▸ List.mem_map_of_mem hq)
      simp only [newVars, List.map_cons, List.map_nil]
      rw [lookup_append_none _ _ _ (h2 q (by simp [hq]))]
      simp only [List.lookup, beq_eq_false_iff_ne.2 hne]

/-- an attribute is set unless it is None or empty -/
def setAttr (k : String) (v : Option String) (a : Attrs) : Attrs :=
  match v with
  | some t => if t = "" then a else put k (some t) a
  | none => a

/-- global attributes: those of the object with title, source and reference -/
def rootAttrs (w : WOpts) (own : Attrs) : Attrs :=
  setAttr "reference" w.reference (setAttr "source" w.source (setAttr "title" w.title own))

theorem addRoot_other (k j : String) (v : Option String) (a : List (String × Attrs)) (hj : j ≠ "ROOT") :
    (addRoot k v a).lookup j = a.lookup j := by
  unfold addRoot
  cases v with
  | none => rfl
  | some t =>
    simp only
    split
    · rfl
    · rw [lookup_put, if_neg hj]

theorem addRoot_root (k : String) (v : Option String) (a : List (String × Attrs)) (r : Attrs) (h : a.lookup "ROOT" = some r) :
    (addRoot k v a).lookup "ROOT" = some (setAttr k v r) := by
  unfold addRoot setAttr
  cases v with
  | none => exact h
  | some t =>
    simp only
    split
    · exact h
    · rw [lookup_put, if_pos rfl, h]; rfl

/-- usual keyword arguments: no mapping or attributes given, standard name for the months -/
structure Usual (w : WOpts) : Prop where
  mapping : w.mapping = []
  attrs : w.attributes = none
  months : w.monthsName = "month"

/-- names of the variables that are written -/
def stdUsed (date : Bool) : List (Fld × String) :=
  [(.l, "l"), (.m, "m"), (.clm, "clm"), (.slm, "slm")] ++ if date then [(.time, "time"), (.month, "month")] else []

theorem mem_stdUsed (date : Bool) (p : Fld × String) (h : p ∈ stdUsed date) : p = (.l, "l") ∨ p = (.m, "m") ∨
    p = (.clm, "clm") ∨ p = (.slm, "slm") ∨ date = true ∧ (p = (.time, "time") ∨ p = (.month, "month")) := by
  unfold stdUsed at h
  cases date <;> simpa [or_assoc] using h

theorem used_usual (w : WOpts) (hu : Usual w) : w.used = stdUsed w.date := by
  unfold WOpts.used stdUsed
  rw [if_pos hu.mapping, hu.months]

/-- the usual attributes of a variable -/
def stdAttrs (w : WOpts) : Fld → Attrs
  | .l => [("long_name", some "spherical_harmonic_degree"), ("units", some "Wavenumber")]
  | .m => [("long_name", some "spherical_harmonic_order"), ("units", some "Wavenumber")]
  | .clm => [("long_name", some "cosine_spherical_harmonics"), ("units", w.units)]
  | .slm => [("long_name", some "sine_spherical_harmonics"), ("units", w.units)]
  | .time => [("long_name", w.timeLongname), ("units", w.timeUnits)]
  | .month => [("long_name", w.monthsLongname), ("units", w.monthsUnits)]

theorem writeAttrs_usual (w : WOpts) (hu : Usual w) (own : Attrs) :
    ∃ at_, writeAttrs w own = .ok at_ ∧ (∀ p ∈ stdUsed w.date, at_.lookup p.2 = some (stdAttrs w p.1)) ∧
      at_.lookup "ROOT" = some (rootAttrs w own) := by
  unfold writeAttrs
  simp only [hu.attrs, Option.getD_none, used_usual w hu]
  rw [if_neg (by cases w.date <;> simp [stdUsed, List.lookup, Fld.name])]
  cases hd : w.date with
  | false =>
    refine ⟨_, by simp [stdUsed, putFor, List.lookup, putDates, hd, bind, Except.bind, pure, Except.pure]; rfl, ?_, ?_⟩
    · intro p hp
      rcases mem_stdUsed _ p hp with rfl | rfl | rfl | rfl | ⟨h, _⟩
      pick_goal 5
      · simp at h
      all_goals
        simp (decide := true) [addRoot_other, lookup_put, stdAttrs]
    · rw [addRoot_root _ _ _ _ (addRoot_root _ _ _ _ (addRoot_root _ _ _ own _))]
      · rfl
      · simp (decide := true) [lookup_put]
  | true =>
    refine ⟨_, by simp [stdUsed, putFor, List.lookup, putDates, hd, bind, Except.bind, pure, Except.pure, used_usual w hu]; rfl, ?_, ?_⟩
    · intro p hp
      rcases mem_stdUsed _ p hp with rfl | rfl | rfl | rfl | ⟨_, rfl | rfl⟩ <;>
        simp (decide := true) [addRoot_other, lookup_put, stdAttrs]
    · rw [addRoot_root _ _ _ _ (addRoot_root _ _ _ _ (addRoot_root _ _ _ own _))]
      · rfl
      · simp (decide := true) [lookup_put]

/-- the arrays fit the dimensions: with dates as many dates as fields, without dates a single field -/
def Fits (date : Bool) (h : Harm K) : Prop := (date = true → h.WF) ∧ (date = false → h.nt = none)

/-- the file that is written into a new file -/
theorem write_spec (hdf5 : Bool) (w : WOpts) (hu : Usual w) (old : Option (File K)) (o : Obj K)
    (hm : o.h.mmax ≤ o.h.lmax) (hf : Fits w.date o.h) (hc : w.clobber = true ∨ old = none) :
    ∃ file, write hdf5 w old o = .ok (if o.root ≠ [] then { o with root := rootAttrs w o.root } else o, file) ∧
      file.root = rootAttrs w o.root ∧
      ∀ p ∈ stdUsed w.date, file.vars.lookup p.2 =
        some ⟨value w.date ⟨o.h.lmax, o.h.mmax, o.h.nt, flatRows o.h, o.h.time, o.h.month⟩ p.1, varAttrs (stdAttrs w p.1)⟩ := by
  obtain ⟨at_, ha, hv, hr⟩ := writeAttrs_usual w hu o.root
  set f : Flat K := ⟨o.h.lmax, o.h.mmax, o.h.nt, flatRows o.h, o.h.time, o.h.month⟩ with hfdef
  have hflat : flat o.h = .ok f := by unfold flat; rw [flatten_spec o.h (by omega)]
  have hnew : (if w.clobber then (⟨[], [], []⟩ : File K) else old.getD ⟨[], [], []⟩) = ⟨[], [], []⟩ := by
    rcases hc with h | h
    · rw [if_pos h]
    · rw [h]; simp
  obtain ⟨f1, hdim, hv1, hr1⟩ : ∃ f1 : File K, addDims hdf5 w.date f ⟨[], [], []⟩ = .ok f1 ∧ f1.vars = [] ∧ f1.root = [] := by
    unfold addDims
    cases hdf5
    · exact ⟨_, by simp; rfl, rfl, rfl⟩
    · exact ⟨_, by simp; rfl, rfl, rfl⟩
  have hnd : ((stdUsed w.date).map Prod.snd).Nodup := by cases w.date <;> simp [stdUsed]
  have hvars := addVars_ok hdf5 w.date at_ f (stdUsed w.date) f1 hnd (by intro p _; rw [hv1]; rfl)
    (by intro p hp; rw [hv p hp]; rfl)
    (by
      intro p hp
      right
      cases hd : w.date with
      | false =>
        rw [hd] at hp
        rcases mem_stdUsed _ p hp with rfl | rfl | rfl | rfl | ⟨h, _⟩
        pick_goal 5
        · simp at h
        all_goals simp [fits, hfdef, hf.2 hd]
      | true =>
        obtain ⟨w1, w2⟩ := hf.1 hd
        rw [hd] at hp
        rcases mem_stdUsed _ p hp with rfl | rfl | rfl | rfl | ⟨_, rfl | rfl⟩ <;> simp [fits, hfdef, w1, w2])
    (by
      intro p hp
      cases hd : w.date with
      | true => exact Or.inl rfl
      | false =>
        right
        rw [hd] at hp
        rcases mem_stdUsed _ p hp with rfl | rfl | rfl | rfl | ⟨h, _⟩
        pick_goal 5
        · simp at h
        all_goals simp)
  refine ⟨{ f1 with vars := f1.vars ++ newVars w.date at_ f (stdUsed w.date), root := f1.root ++ rootAttrs w o.root }, ?_, ?_, ?_⟩
  · unfold write
    rw [if_neg]
    · simp only [hnew, hflat, ha, hdim, used_usual w hu, hvars, bind, Except.bind, hr, pure, Except.pure, hu.attrs, true_and]
    · rintro ⟨_, h1, h2⟩
      rcases hc with h | h
      · rw [h] at h1; simp at h1
      · rw [h] at h2; simp at h2
  · simp [hr1]
  · intro p hp
    simp only [hv1, List.nil_append, newVars]
    have key : ∀ ps : List (Fld × String), (ps.map Prod.snd).Nodup → ∀ q ∈ ps,
        (ps.map fun p => (p.2, (⟨value w.date f p.1, varAttrs ((at_.lookup p.2).getD [])⟩ : Var K))).lookup q.2 =
          some ⟨value w.date f q.1, varAttrs ((at_.lookup q.2).getD [])⟩ := by
      intro ps
      induction ps with
      | nil => intro _ q hq; simp at hq
      | cons a ps ih =>
        intro hn q hq
        simp only [List.map_cons, List.nodup_cons] at hn
        rcases List.mem_cons.1 hq with rfl | hq
        · simp
        · have : q.2 ≠ a.2 := fun h => hn.1 (h ▸ List.mem_map_of_mem hq)
          simp only [List.map_cons, List.lookup, beq_eq_false_iff_ne.2 this]
          exact ih hn.2 q hq
    rw [key _ hnd p hp, hv p hp]
    rfl

theorem npMax_lm (lmax mmax : ℕ) (h : mmax ≤ lmax) :
    npMax ((lmPairs lmax mmax).map Prod.fst) = .ok lmax ∧ npMax ((lmPairs lmax mmax).map Prod.snd) = .ok mmax := by
  have key : ∀ (xs : List ℕ) (a : ℕ), a ∈ xs → (∀ b ∈ xs, b ≤ a) → npMax xs = .ok a := by
    intro xs a h1 h2
    unfold npMax
    rw [List.max?_eq_some_iff.2 ⟨h1, h2⟩]
  constructor
  · apply key
    · exact List.mem_map.2 ⟨(lmax, 0), (mem_lmPairs _ _ _ _).2 ⟨by omega, le_rfl, by omega⟩, rfl⟩
    · intro b hb
      obtain ⟨⟨l, m⟩, hp, rfl⟩ := List.mem_map.1 hb
      exact ((mem_lmPairs _ _ _ _).1 hp).2.1
  · apply key
    · exact List.mem_map.2 ⟨(lmax, mmax), (mem_lmPairs _ _ _ _).2 ⟨h, le_rfl, le_rfl⟩, rfl⟩
    · intro b hb
      obtain ⟨⟨l, m⟩, hp, rfl⟩ := List.mem_map.1 hb
      exact ((mem_lmPairs _ _ _ _).1 hp).2.2

theorem zipRows_rows (rows : List (Row K)) :
    zipRows (rows.map Row.l) (rows.map Row.m) (rows.map Row.c) (rows.map Row.s) = .ok rows := by
  unfold zipRows
  rw [if_neg (by simp)]
  congr 1
  apply List.ext_getElem
  · simp
  · intro i h1 h2
    simp [h2]

/-- the object that is read from a file with the variables of a flattened object -/
theorem read_spec (date : Bool) (h : Harm K) (hm : h.mmax ≤ h.lmax) (hf : Fits date h) (file : File K)
    (at_ : Fld → Attrs)
    (hv : ∀ p ∈ stdUsed date, file.vars.lookup p.2 =
      some ⟨value date ⟨h.lmax, h.mmax, h.nt, flatRows h, h.time, h.month⟩ p.1, at_ p.1⟩) :
    ∃ out g, read date file = .ok out ∧ out.h = (squeezeN g).1 ∧ out.ndim = (squeezeN g).2 ∧
      g.lmax = h.lmax ∧ g.mmax = h.mmax ∧
      g.nt = (if date then some (h.nt.getD 1) else none) ∧ g.time = (if date then h.time else []) ∧
      g.month = (if date then adjustMonths h.month else []) ∧
      (∀ l m t, l ≤ h.lmax → m ≤ h.mmax → g.clm l m t = (if m ≤ l then h.clm l m t else 0) ∧
        g.slm l m t = (if m ≤ l then h.slm l m t else 0)) ∧
      out.root = file.root ∧ out.attrs = (fields date).filterMap (readAttrs file) := by
  let h' : Harm K := { h with nt := if date then some (h.nt.getD 1) else none, time := if date then h.time else []
                              month := if date then h.month else [] }
  obtain ⟨f, g, e1, e2, e3, e4, e5, e6, e7, e8⟩ := expand_flatten h' (by simp only [h']; omega)
  rw [flatten_spec h' (by simp only [h']; omega)] at e1
  obtain rfl := Except.ok.inj e1
  have hrows : flatRows h' = flatRows h := rfl
  rw [hrows] at e2
  have hl : file.vars.lookup "l" = some ⟨.degs ((flatRows h).map Row.l), at_ .l⟩ := hv (.l, "l") (by simp [stdUsed])
  have hmm : file.vars.lookup "m" = some ⟨.degs ((flatRows h).map Row.m), at_ .m⟩ := hv (.m, "m") (by simp [stdUsed])
  have hc : file.vars.lookup "clm" = some ⟨.coefs (if date then some (h.nt.getD 1) else none) ((flatRows h).map Row.c), at_ .clm⟩ := by
    have := hv (.clm, "clm") (by simp [stdUsed])
    cases date with
    | false => simpa [value, hf.2 rfl] using this
    | true => simpa [value] using this
  have hs : file.vars.lookup "slm" = some ⟨.coefs (if date then some (h.nt.getD 1) else none) ((flatRows h).map Row.s), at_ .slm⟩ := by
    have := hv (.slm, "slm") (by simp [stdUsed])
    cases date with
    | false => simpa [value, hf.2 rfl] using this
    | true => simpa [value] using this
  have hd : getDates date file = .ok (if date then h.time else [], if date then h.month else []) := by
    unfold getDates
    cases date with
    | false => rfl
    | true =>
      have ht : file.vars.lookup "time" = some ⟨.nums h.time, at_ .time⟩ := hv (.time, "time") (by simp [stdUsed])
      have hg : file.vars.lookup "month" = some ⟨.ints h.month, at_ .month⟩ := hv (.month, "month") (by simp [stdUsed])
      simp [getVar, ht, hg, asNums, asInts, bind, Except.bind, pure, Except.pure]
  have m1 : (flatRows h).map Row.l = (lmPairs h.lmax h.mmax).map Prod.fst := by simp [flatRows]
  have m2 : (flatRows h).map Row.m = (lmPairs h.lmax h.mmax).map Prod.snd := by simp [flatRows]
  obtain ⟨n1, n2⟩ := npMax_lm h.lmax h.mmax hm
  have hex : expandE (⟨h.lmax, h.mmax, if date then some (h.nt.getD 1) else none, flatRows h, if date then h.time else [],
      if date then h.month else []⟩ : Flat K) = .ok g := by
    unfold expandE
    rw [e2]
  refine ⟨{ h := (squeezeN { g with month := adjustMonths g.month }).1
            ndim := (squeezeN { g with month := adjustMonths g.month }).2
            attrs := (fields date).filterMap (readAttrs file), root := file.root },
    { g with month := adjustMonths g.month }, ?_, rfl, rfl, e3, e4, e5, e6, ?_, e8, rfl, rfl⟩
  · unfold read
    simp only [getVar, hl, hmm, hc, hs, asDegs, asCoefs, bind, Except.bind, hd]
    rw [zipRows_rows, m1, m2, n1, n2]
    simp only [ne_eq, not_true_eq_false, if_false, hex, pure, Except.pure]
  · simp only [e7, h']
    cases date <;> rfl

end Verif.HarmIO.Data
