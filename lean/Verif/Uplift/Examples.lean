import Verif.Uplift.Props2

/-!
# Concrete cases for C97
-/
namespace Verif.Uplift
open Verif.Names Verif.Time Verif.Time.Spec Verif.GIA Verif.Dealias Verif.Harmonics
open Verif.GeoRead (pad2 pad4)
open Verif.SLR (Stop decimal)

/-- degrees and orders up to `L` -/
def pairs (L : ℕ) : List (ℕ × ℕ) := (List.range (L + 1)).flatMap fun l => (List.range (l + 1)).map fun m => (l, m)

/-- a number without sign -/
def numeral (n : ℕ) : Tok := .int .none ((SpatialIO.natDigits n).head (SpatialIO.natDigits_ne n)) (SpatialIO.natDigits n).tail none

/-- a line of coefficients -/
def lineOf (p : ℕ × ℕ) : Dealias.Line :=
  ' ' :: ' ' :: ((numeral p.1).chars ++ ' ' :: ((numeral p.2).chars ++ ' ' :: ' ' ::
    ((Tok.dec ⟨.none, [1], [5], some (false, .minus, 0, [1]), by decide⟩).chars ++ ' ' :: ((Tok.int .minus 2 [] none).chars ++ []))))

/-- a field at six o'clock -/
def aField : Hour := ⟨6, fun _ _ => 3 / 20, fun _ _ => -2⟩

theorem line_ok (p : ℕ × ℕ) : CoefLine (lineOf p) ⟨p.1, p.2, aField.c p.1 p.2, aField.s p.1 p.2⟩ := by
  refine ⟨_, _, _, _, .dec ⟨.none, [1], [5], some (false, .minus, 0, [1]), by decide⟩, .int .minus 2 [] none, [],
    (?_ : Num (lineOf p) (numeral p.1 :: numeral p.2 :: _)), ?_, ?_, ?_, ?_⟩
  · have st : ∀ r, Stop (' ' :: r) := fun r => Or.inr ⟨' ', r, rfl, by decide⟩
    exact .blank ' ' (by decide) (.blank ' ' (by decide) (.num (numeral p.1) (st _) (.blank ' ' (by decide)
      (.num (numeral p.2) (st _) (.blank ' ' (by decide) (.blank ' ' (by decide)
      (.num _ (st _) (.blank ' ' (by decide) (.num _ (Or.inl rfl) .nil)))))))))
  · rw [List.cons_head_tail, SpatialIO.decimal_natDigits]
  · rw [List.cons_head_tail, SpatialIO.decimal_natDigits]
  · simp [Tok.val, aField]; decide +kernel
  · simp [Tok.val, aField]; decide +kernel

/-- the text of `n` fields of degree `L` -/
def textOf (L : ℕ) : ℕ → List Dealias.Line
  | 0 => []
  | n + 1 => sampleHead :: ((pairs L).map lineOf ++ textOf L n)

/-- a file of the first of January 2006 with `n` fields of degree `L` -/
def aFile (L n : ℕ) : Member := ⟨dailyName 2006 1 1 "06".toList true, 1136073600, "#".toList :: textOf L n⟩

/-- the fields of this day -/
def aDay (n : ℕ) : Day := ⟨2006, 1, 1, List.replicate n aField⟩

/-- its archive -/
def anArch (L n : ℕ) : Arch := ⟨⟨archiveName 2006 1 "06".toList false, 1136073600, [aFile L n]⟩, [(aDay n, aFile L n)]⟩

theorem text_ok (L n : ℕ) : DayText "oba".toList (pairs L).length []
    ((List.replicate n aField).map fun f => (⟨f.h, rowsOf (pairs L) f⟩ : Block)) (textOf L n) := by
  induction n with
  | zero => exact .done
  | succ n ih =>
    obtain ⟨h1, -, h2, h3⟩ := sample_head
    refine .block sampleHead 6 _ _ h3 h1 h2 (by simp) ?_ ih
    unfold rowsOf
    generalize pairs L = P
    induction P with
    | nil => exact .nil
    | cons p P ih => exact .cons (line_ok p) ih

theorem aFile_ok (L n : ℕ) : FileOf "oba".toList (pairs L) (aDay n) (aFile L n) := by
  refine ⟨⟨"06".toList, true, ⟨by decide, by decide⟩, rfl⟩, (by decide : 2006 < 10000), (by decide : 1 < 100), (by decide : 1 < 100), [], ?_⟩
  refine .other _ ?_ (text_ok L n)
  rw [← isHeader_iff _ _ (by decide)]
  decide +kernel

theorem anArch_ok (L n : ℕ) : IsMonth "oba".toList (pairs L) n (anArch L n) 2006 1 where
  name := ⟨"06".toList, false, ⟨by decide, by decide⟩, rfl⟩
  year := by decide
  month := by decide
  members := rfl
  some := by simp [anArch]
  files := by
    intro f hf
    rw [anArch, List.mem_singleton] at hf
    subst hf
    exact ⟨aFile_ok L n, rfl, rfl, by simp [aDay], le_rfl, (by decide : (1 : ℤ) ≤ monthLen 2006 1)⟩
  once := by simp [anArch]

/-- a run -/
def aJob (form : Form) : Job := ⟨"RL06".toList, "oba".toList, some [2006, 2007], [0, 90], [45, -45], form⟩

theorem aJob_asked (form : Form) : Asked (aJob form).years := by
  intro ys h
  obtain rfl := Option.some.inj h
  exact ⟨by simp, by decide⟩

theorem aJob_wanted (form : Form) : Wanted (aJob form).years 2006 := by
  intro ys h
  obtain rfl := Option.some.inj h
  decide

/-- the hypotheses of `month_maps`, `archive_step`, `text_fails` and `empty_skipped` are met -/
example : Layout 180 (pairs 180) ∧ IsMonth (aJob .netCDF4).dset (pairs 180) 8 (anArch 180 8) 2006 1 ∧ Asked (aJob .netCDF4).years ∧
    Wanted (aJob .netCDF4).years 2006 ∧ ¬ Wanted (aJob .netCDF4).years 2005 ∧ Due none (anArch 180 8).tar ∧
    ¬ Due (some (1136073600, .empty)) (anArch 180 8).tar := by
  refine ⟨layout_usual 180, anArch_ok 180 8, aJob_asked _, aJob_wanted _, ?_, ?_, ?_⟩
  · intro h
    have := h [2006, 2007] rfl
    revert this; decide
  · intro t c h; cases h
  · intro h
    have := h 1136073600 .empty rfl
    revert this
    simp [anArch]

/-- the maps of the month: 31 times 8; those after the first day are of days without a file -/
example (eps : ℝ) (E : Units.Earth) (hl kl ll : ℕ → ℝ) (f : ℕ → ℝ) (hf : upliftFactor E hl kl ll = some f) :
    ∃ g, archiveMaps eps 1 f (aJob .HDF5) 8 180 "2006".toList "01".toList [aFile 180 8] = .ok g ∧ g.data.length = 248 ∧
      g.hours[3]? = some 6 ∧ g.hours[8]? = some (-24) ∧ g.data[8]? = some [[0, 0], [0, 0]] ∧
      g.since = "hours since 2006-01-01T00:00:00".toList := by
  obtain ⟨g, h1, h2⟩ := month_maps eps 1 one_ne_zero E hl kl ll f hf (aJob .HDF5) 8 180 (by decide) (by decide) (pairs 180) (layout_usual 180)
    (anArch 180 8) 2006 1 (anArch_ok 180 8)
  obtain ⟨q1, q2⟩ := h2.missing 2 0 (by decide) (by decide) (by
    intro f hf
    rw [anArch, List.mem_singleton] at hf
    subst hf; decide) (by decide)
  refine ⟨g, h1, h2.length.1, ?_, q2, q1, h2.since⟩
  exact (h2.fields (aDay 8, aFile 180 8) (by simp [anArch]) 3 aField rfl).2

/-- a whole run: the file of the month is made -/
example (eps : ℝ) (E : Units.Earth) (hl kl ll : ℕ → ℝ) (now : ℚ) :
    ∃ st' listed g, globalUplift eps 1 E hl kl ll (aJob .netCDF4) [(anArch 180 8).tar, ⟨"README".toList, 0, []⟩] now (fun _ => none) =
        ((st', listed), .finished) ∧
      st' "AOD1B_RL06_oba_mmCU_2006_01.nc".toList = some (now, .maps g) ∧ "AOD1B_RL06_oba_mmCU_2006_01.nc".toList ∈ listed := by
  obtain ⟨st', listed, h1, h2⟩ := uplift_program eps 1 one_ne_zero E hl kl ll (aJob .netCDF4) (by decide) (aJob_asked _) (by decide) 8 180
    (Or.inr ⟨rfl, rfl, rfl⟩) (pairs 180) (layout_usual 180) [⟨anArch 180 8, 2006, 1⟩]
    (by intro x hx; rw [List.mem_singleton] at hx; subst hx; exact anArch_ok 180 8) (by simp)
    [⟨"README".toList, 0, []⟩] (by
      intro t ht r
      rw [List.mem_singleton] at ht
      subst ht
      intro h
      have := congrArg (fun l => l.head?) h
      revert this
      simp) _ (List.Perm.swap ..) now (fun _ => none)
  have h3 := h2 [⟨anArch 180 8, 2006, 1⟩] (by
    intro x
    constructor
    · intro hx
      refine ⟨hx, ?_⟩
      rw [List.mem_singleton] at hx
      subst hx
      exact aJob_wanted _
    · exact fun hx => hx.1)
  have hdue : Due ((fun _ => none : Disk) (Item.out (aJob .netCDF4) ⟨anArch 180 8, 2006, 1⟩)) (anArch 180 8).tar := by
    intro t c h; cases h
  obtain ⟨g, hg, -⟩ := h3.made ⟨anArch 180 8, 2006, 1⟩ (by simp) hdue
  exact ⟨st', listed, g, h1, hg, (h3.names _).2 ⟨⟨anArch 180 8, 2006, 1⟩, by simp, hdue, rfl⟩⟩

/-- a file with one field instead of eight -/
example (eps : ℝ) (f : ℕ → ℝ) : archiveMaps eps 1 f (aJob .netCDF4) 8 180 (pad4 2006) (pad2 1) [aFile 180 1] = .hangs := by
  refine short_file_hangs eps 1 f (aJob .netCDF4) 8 180 (pairs 180) (layout_usual 180) 2006 1 (by decide) (by decide) (aDay 1) _ []
    ⟨"06".toList, true, ⟨by decide, by decide⟩, rfl⟩ (by decide) [] ?_ (by simp) (by simp [aDay])
  refine .other _ ?_ (text_ok 180 1)
  rw [← isHeader_iff _ _ (by decide)]
  decide +kernel

end Verif.Uplift
