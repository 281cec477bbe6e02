import Verif.HarmIO.IndexProps
import Verif.Harmonics.Flatten

/-!
# C84, C85: files that cannot be written or read, shapes and attributes of variables, breaks of lines
-/
set_option linter.unusedSectionVars false
namespace Verif.HarmIO.Data
open Verif.Harmonics
open Verif (lmPairs)
open Verif.SpatialIO.Data (Attrs)
variable {K : Type} [_root_.Field K]

theorem addVars_fits (date : Bool) (at_ : List (String × Attrs)) (f : Flat K) (ps : List (Fld × String)) :
    ∀ (file file' : File K), ps.foldlM (addVar false date at_ f) file = .ok file' → ∀ p ∈ ps, fits date f p.1 = true := by
  induction ps with
  | nil => intro _ _ _ p hp; simp at hp
  | cons q ps ih =>
    intro file file' h p hp
    rw [List.foldlM_cons] at h
    obtain ⟨f1, h1, h2⟩ := bind_ok h
    rcases List.mem_cons.1 hp with rfl | hp
    · by_contra hc
      unfold addVar at h1
      rw [if_pos ⟨rfl, by simpa using hc⟩] at h1
      simp at h1
    · exact ih f1 file' h2 p hp

theorem flat_inv (h : Harm K) (f : Flat K) (hf : flat h = .ok f) :
    f.nt = h.nt ∧ f.time = h.time ∧ f.month = h.month ∧ f.rows.length = (lmPairs h.lmax h.mmax).length := by
  unfold flat at hf
  by_cases hm : h.mmax ≤ h.lmax + 1
  · rw [flatten_spec h hm] at hf
    simp only [Except.ok.injEq] at hf
    subst hf
    simp [flatRows]
  · obtain ⟨e, he⟩ := flatten_fails h (by omega)
    rw [he] at hf
    cases e <;> simp at hf

theorem write_fits (w : WOpts) (old : Option (File K)) (o o' : Obj K) (file : File K)
    (h : write false w old o = .ok (o', file)) : ∃ f, flat o.h = .ok f ∧ ∀ p ∈ w.used, fits w.date f p.1 = true := by
  unfold write at h
  rw [if_neg (by simp)] at h
  obtain ⟨f, hf, h⟩ := bind_ok h
  obtain ⟨at_, _, h⟩ := bind_ok h
  obtain ⟨f1, _, h⟩ := bind_ok h
  obtain ⟨f2, h2, _⟩ := bind_ok h
  exact ⟨f, hf, addVars_fits w.date at_ f w.used f1 f2 h2⟩

/-- **C84** a netCDF4 file is only written if the object has as many fields as dates (none at all without dates) and as many
months as dates -/
theorem netcdf_shapes (w : WOpts) (old : Option (File K)) (o o' : Obj K) (file : File K)
    (h : write false w old o = .ok (o', file)) :
    (∀ k, (Fld.clm, k) ∈ w.used ∨ (Fld.slm, k) ∈ w.used →
      (w.date = true → o.h.nt.getD 1 = o.h.time.length) ∧ (w.date = false → o.h.nt = none)) ∧
    (∀ k, (Fld.time, k) ∈ w.used → w.date = true) ∧
    (∀ k, (Fld.month, k) ∈ w.used → w.date = true ∧ o.h.month.length = o.h.time.length) := by
  obtain ⟨f, hf, hfit⟩ := write_fits w old o o' file h
  obtain ⟨e1, e2, e3, _⟩ := flat_inv o.h f hf
  rw [← e1, ← e2, ← e3]
  refine ⟨?_, ?_, ?_⟩
  · rintro k (hk | hk)
    all_goals
      have := hfit _ hk
      cases hd : w.date <;> simpa [fits, hd] using this
  · intro k hk; simpa [fits] using hfit _ hk
  · intro k hk; simpa [fits] using hfit _ hk

/-- **C84** the dimensions of a new netCDF4 file: the number of degrees and orders, and the number of dates; a file with one
of these dimensions is refused -/
theorem netcdf_dimensions (w : WOpts) (old : Option (File K)) (o o' : Obj K) (file : File K)
    (h : write false w old o = .ok (o', file)) :
    ((w.clobber = true ∨ old = none) →
      file.dims = ("lm", (lmPairs o.h.lmax o.h.mmax).length) :: if w.date then [("time", o.h.time.length)] else []) ∧
    (w.clobber = false → ∀ g, old = some g →
      g.dims.lookup "lm" = none ∧ (w.date = true → g.dims.lookup "time" = none)) := by
  obtain ⟨f, at_, f1, r, h1, _, h3, _, h5, _⟩ := write_inv false w old o o' file h
  obtain ⟨_, e2, _, e4⟩ := flat_inv o.h f h1
  unfold addDims at h3
  rw [if_neg (by simp)] at h3
  generalize hf0 : (if w.clobber then (⟨[], [], []⟩ : File K) else old.getD ⟨[], [], []⟩) = f0 at h3
  have hno : ¬ ((f0.dims.lookup "lm").isSome ∨ (w.date = true ∧ (f0.dims.lookup "time").isSome)) := by
    intro hc
    rw [if_pos hc] at h3
    simp at h3
  rw [if_neg hno] at h3
  simp only [Except.ok.injEq] at h3
  refine ⟨?_, ?_⟩
  · intro hc
    have hnew : f0 = ⟨[], [], []⟩ := by
      rw [← hf0]
      rcases hc with h | h
      · rw [if_pos h]
      · rw [h]; simp
    rw [h5, ← h3, hnew, e2, e4]
    simp
  · intro hc g hg
    have hnew : f0 = g := by rw [← hf0, hc, hg]; simp
    rw [hnew] at hno
    simp only [not_or, not_and, Option.not_isSome_iff_eq_none] at hno
    exact hno

/-- **C84** attributes that are empty, and those which the HDF5 library makes itself, are not written -/
theorem dataset_written_attrs (hdf5 : Bool) (w : WOpts) (old : Option (File K)) (o o' : Obj K) (file : File K)
    (hc : w.clobber = true ∨ old = none) (h : write hdf5 w old o = .ok (o', file)) (x : String × Var K) (hx : x ∈ file.vars)
    (p : String × Option String) (hp : p ∈ x.2.attrs) :
    p.2 ≠ none ∧ p.2 ≠ some "" ∧ p.1 ∉ ["DIMENSION_LIST", "CLASS", "NAME"] := by
  obtain ⟨f, at_, f1, r, _, _, h3, _, h5, _⟩ := write_inv hdf5 w old o o' file h
  have hnew : (if w.clobber then (⟨[], [], []⟩ : File K) else old.getD ⟨[], [], []⟩) = ⟨[], [], []⟩ := by
    rcases hc with h | h
    · rw [if_pos h]
    · rw [h]; simp
  rw [hnew] at h3
  rw [h5] at hx
  simp only [(addDims_vars _ _ _ _ _ h3).1, newVars, List.nil_append, List.mem_map] at hx
  obtain ⟨q, _, rfl⟩ := hx
  have := (List.mem_filter.1 hp).2
  simp only [decide_eq_true_eq] at this
  simp only [List.mem_cons, List.not_mem_nil, or_false, not_or]
  exact ⟨this.1, this.2.1, this.2.2⟩

/-- **C84** a file is only read if its orders and coefficients are at least as long as its degrees, and the cosine and sine
coefficients have the same number of dates -/
theorem read_lengths (date : Bool) (f : File K) (out : Out K) (h : read date f = .ok out) :
    ∃ ls ms nt cs ss al am ac as_, f.vars.lookup "l" = some ⟨.degs ls, al⟩ ∧ f.vars.lookup "m" = some ⟨.degs ms, am⟩ ∧
      f.vars.lookup "clm" = some ⟨.coefs nt cs, ac⟩ ∧ f.vars.lookup "slm" = some ⟨.coefs nt ss, as_⟩ ∧
      ls.length ≤ ms.length ∧ ls.length ≤ cs.length ∧ ls.length ≤ ss.length := by
  have hd : ∀ k xs, (getVar f k >>= asDegs) = .ok xs → ∃ a, f.vars.lookup k = some ⟨.degs xs, a⟩ := by
    intro k xs h
    unfold getVar at h
    cases hk : f.vars.lookup k with
    | none => rw [hk] at h; simp [bind, Except.bind] at h
    | some v =>
      rw [hk] at h
      obtain ⟨val, a⟩ := v
      cases val <;> simp [bind, Except.bind, asDegs] at h
      subst h
      exact ⟨a, rfl⟩
  have hc : ∀ k xs, (getVar f k >>= asCoefs) = .ok xs → ∃ a, f.vars.lookup k = some ⟨.coefs xs.1 xs.2, a⟩ := by
    intro k xs h
    unfold getVar at h
    cases hk : f.vars.lookup k with
    | none => rw [hk] at h; simp [bind, Except.bind] at h
    | some v =>
      rw [hk] at h
      obtain ⟨val, a⟩ := v
      cases val <;> simp [bind, Except.bind, asCoefs] at h
      subst h
      exact ⟨a, rfl⟩
  unfold read at h
  obtain ⟨ls, a1, h⟩ := bind_ok h
  obtain ⟨ms, a2, h⟩ := bind_ok h
  obtain ⟨c, a3, h⟩ := bind_ok h
  obtain ⟨s, a4, h⟩ := bind_ok h
  obtain ⟨tg, a5, h⟩ := bind_ok h
  obtain ⟨lmax, a6, h⟩ := bind_ok h
  obtain ⟨mmax, a7, h⟩ := bind_ok h
  obtain ⟨rows, a8, h⟩ := bind_ok h
  obtain ⟨al, b1⟩ := hd _ _ a1
  obtain ⟨am, b2⟩ := hd _ _ a2
  obtain ⟨ac, b3⟩ := hc _ _ a3
  obtain ⟨as_, b4⟩ := hc _ _ a4
  split at h
  · simp at h
  · rename_i he
    simp only [ne_eq, not_not] at he
    unfold zipRows at a8
    split at a8
    · simp at a8
    · rename_i hl
      simp only [not_or, not_lt] at hl
      exact ⟨ls, ms, c.1, c.2, s.2, al, am, ac, as_, b1, b2, b3, by rw [he]; exact b4, hl.1, hl.2.1, hl.2.2⟩

/-- **C85** lines of an index file end at every line boundary of Unicode: line feed, vertical tab, form feed, carriage
return, the file, group and record separators, next line, and the line and paragraph separators -/
theorem splitLines_boundaries (line rest : List Char) (c : Char)
    (hc : c ∈ ['\n', '\x0b', '\x0c', '\r', '\x1c', '\x1d', '\x1e', '\u0085', '\u2028', '\u2029'])
    (h : ∀ x ∈ line, x ∉ ['\n', '\x0b', '\x0c', '\r', '\x1c', '\x1d', '\x1e', '\u0085', '\u2028', '\u2029']) :
    splitLines (line ++ c :: rest) = line :: splitLines rest := by
  have hbr : ∀ x : Char, isBreak x = true ↔
      x ∈ ['\n', '\x0b', '\x0c', '\r', '\x1c', '\x1d', '\x1e', '\u0085', '\u2028', '\u2029'] := by
    intro x
    have ht : ∀ y : Char, x.toNat = y.toNat ↔ x = y := fun y => Char.toNat_inj
    simp only [isBreak, decide_eq_true_eq, List.mem_cons, List.not_mem_nil, or_false]
    rw [← ht '\n', ← ht '\x0b', ← ht '\x0c', ← ht '\r', ← ht '\x1c', ← ht '\x1d', ← ht '\x1e', ← ht '\u0085', ← ht '\u2028',
      ← ht '\u2029']
    rfl
  induction line with
  | nil => rw [List.nil_append, splitLines, if_pos ((hbr c).2 hc)]
  | cons a cs ih =>
    rw [List.cons_append, splitLines, if_neg (fun hb => h a (by simp) ((hbr a).1 hb)), ih fun x hx => h x (by simp [hx])]

/-! ## Examples -/

example : ∃ o' file, write false {} none exObj = .ok (o', file) ∧ file.dims = [("lm", 3), ("time", 2)] := by
  obtain ⟨o', file, out, h1, _⟩ :=
    dataset_round_trip false {} ⟨rfl, rfl, rfl⟩ rfl none exObj (by decide) exHarm_wf (Or.inl rfl)
  exact ⟨o', file, h1, (netcdf_dimensions {} none exObj o' file h1).1 (Or.inl rfl)⟩

/-- a month too few -/
example (o' : Obj ℚ) (file : File ℚ) : write false {} none ⟨{ exHarm with month := [25] }, []⟩ ≠ .ok (o', file) := by
  intro h
  have := ((netcdf_shapes {} none _ o' file h).2.2 "month" (by decide)).2
  simp [exHarm] at this

example : splitLines "a\x0bb\nc".toList = ["a".toList, "b".toList, "c".toList] := by decide +kernel

end Verif.HarmIO.Data
