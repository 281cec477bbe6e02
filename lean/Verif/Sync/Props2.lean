import Verif.Sync.Props
import Mathlib.Tactic.IntervalCases

/-!
# Archives, pages and concrete cases of C79
-/
namespace Verif.Sync
open Verif.Utilities (even Str Bytes)

/-! ## CNES archives -/

theorem unpack_le32 (n : ℕ) (h : n < 2 ^ 32) : unpack32 (le32 n) = some n := by
  have e : le32 n = [UInt8.ofNat (n / 256 ^ 0 % 256), UInt8.ofNat (n / 256 ^ 1 % 256), UInt8.ofNat (n / 256 ^ 2 % 256),
    UInt8.ofNat (n / 256 ^ 3 % 256)] := rfl
  rw [e]
  unfold unpack32
  simp only [UInt8.toNat_ofNat']
  congr 1
  omega

theorem le32_length (n : ℕ) : (le32 n).length = 4 := by simp [le32]

theorem gzip_time (m : Member) (h : m.mtime < 2 ^ 32) : gzipTime (gzip m) = some m.mtime := by
  unfold gzipTime gzip
  rw [List.append_assoc, List.drop_append_of_le_length (by simp)]
  simp only [List.drop_succ_cons, List.drop_nil, List.nil_append]
  rw [List.take_append_of_le_length (by rw [le32_length]), List.take_of_length_le (by rw [le32_length]), unpack_le32 _ h]

theorem gzip_time_part (m : Member) (h : m.mtime < 2 ^ 32) (k : ℕ) (hk : 8 ≤ k) :
    gzipTime ((gzip m).take k) = some m.mtime := by
  have e : (((gzip m).take k).drop 4).take 4 = ((gzip m).drop 4).take 4 := by
    rw [List.drop_take, List.take_take, min_eq_left (by omega)]
  unfold gzipTime
  rw [e]
  exact gzip_time m h

theorem unpack_short (b : Bytes) (h : b.length < 4) : unpack32 b = none := by
  unfold unpack32
  split
  · simp at h
  · rfl

/-- **C79** a member of the archive is copied when there is no copy, or its time is later than the one in the header of the
copy, or `CLOBBER` is set; the copy then has that time, and is kept until a member with a later time comes along -/
theorem gzip_copied (CLOBBER : Bool) (now : ℚ) (m : Member) (h : m.mtime < 2 ^ 32) (f : Option LFile)
    (hf : f = none ∨ ∃ g t, f = some g ∧ gzipTime g.data = some t ∧ (t < m.mtime ∨ CLOBBER = true)) :
    gzipCopy CLOBBER none now m f = some (some ⟨gzip m, m.mtime⟩) ∧
    ∀ (m' : Member) now', m'.mtime < 2 ^ 32 → gzipCopy false none now' m' (some ⟨gzip m, m.mtime⟩) =
      some (if m.mtime < m'.mtime then some ⟨gzip m', m'.mtime⟩ else some ⟨gzip m, m.mtime⟩) := by
  constructor
  · rcases hf with rfl | ⟨g, t, rfl, hg, ht⟩
    · simp [gzipCopy]; omega
    · rcases ht with ht | ht
      · simp [gzipCopy, hg, ht]; omega
      · simp [gzipCopy, hg, ht]; omega
  · intro m' now' h'
    simp only [gzipCopy, gzip_time m h, Option.map_some, Option.bind_eq_bind, Option.bind_some, Bool.or_false,
      decide_eq_true_eq, gt_iff_lt, h', ↓reduceIte]
    split_ifs <;> rfl

/-- **C79** (violated) a copy interrupted after its header was written holds the time of the member: it is kept by every
later run without `CLOBBER`, at any clock -/
theorem gzip_truncated_kept (CLOBBER : Bool) (now : ℚ) (m : Member) (h : m.mtime < 2 ^ 32) (k : ℕ) (hk : 8 ≤ k) (g : LFile)
    (hg : gzipCopy CLOBBER (some k) now m none = some (some g)) (now' : ℚ) :
    g.data = (gzip m).take k ∧ gzipCopy false none now' m (some g) = some (some g) := by
  simp only [gzipCopy, Option.bind_eq_bind, Option.bind_some, Bool.true_or, ↓reduceIte, Option.some.injEq] at hg
  subst hg
  refine ⟨rfl, ?_⟩
  simp [gzipCopy, gzip_time_part m h k hk]

/-- **C79** (violated) a copy interrupted before the time in its header was written makes every later run raise, with or
without `CLOBBER` -/
theorem gzip_short_raises (C : Bool) (now : ℚ) (m : Member) (k : ℕ) (hk : k < 8) (g : LFile)
    (hg : gzipCopy C (some k) now m none = some (some g)) (C' : Bool) (stop : Option ℕ) (now' : ℚ) (m' : Member) :
    gzipCopy C' stop now' m' (some g) = none := by
  simp only [gzipCopy, Option.bind_eq_bind, Option.bind_some, Bool.true_or, ↓reduceIte, Option.some.injEq] at hg
  subst hg
  have : gzipTime ((gzip m).take k) = none := by
    unfold gzipTime
    apply unpack_short
    simp
    omega
  simp [gzipCopy, this]

/-! ## Monthly archives -/

/-- **C79** the archive of a month holds the files that were on the server in the first run that found any; files published
later never get into it without `CLOBBER` -/
theorem tar_frozen (lists : List (List Remote)) :
    lists.foldl (fun loc fs => tarMonth false fs loc) none = lists.find? (fun fs => 0 < fs.length) := by
  have hs : ∀ (ls : List (List Remote)) a, ls.foldl (fun loc fs => tarMonth false fs loc) (some a) = some a := by
    intro ls a
    induction ls with
    | nil => rfl
    | cons l ls ih => simpa [tarMonth] using ih
  induction lists with
  | nil => rfl
  | cons l ls ih =>
    rw [List.foldl_cons, List.find?_cons]
    by_cases h : 0 < l.length
    · simp only [tarMonth, h, true_or, true_and, ↓reduceIte, decide_true]
      exact hs ls l
    · simp only [tarMonth, h, false_and, ↓reduceIte, decide_false]
      exact ih

/-! ## Pages -/

/-- **C79** the listing of the Swarm server is complete if pages hold up to 500 entries -/
theorem swarm_complete {A : Type} (files : List A) (fuel : ℕ) (hf : files.length < 500 * fuel) :
    swarmPages (fun pos => (files.drop pos).take 500) fuel 0 = some files := by
  have gen : ∀ fuel pos, files.length < 500 * fuel + pos →  0 < fuel →
      swarmPages (fun pos => (files.drop pos).take 500) fuel pos = some (files.drop pos) := by
    intro fuel
    induction fuel with
    | zero => intro pos _ h; omega
    | succ fuel ih =>
      intro pos h _
      unfold swarmPages
      by_cases hp : ((files.drop pos).take 500).length = 500
      · have hl : 500 ≤ files.length - pos := by
          rw [List.length_take, List.length_drop] at hp; omega
        simp only [hp, ↓reduceIte]
        rw [ih (pos + 500) (by omega) (by omega), Option.map_some, ← List.drop_drop, List.take_append_drop]
      · rw [if_neg hp, List.take_of_length_le]
        rw [List.length_take] at hp
        omega
  simpa using gen fuel 0 (by omega) (by omega)

/-- **C79** (violated) if the server gives fewer entries in a page than were asked for, only the first page is seen -/
theorem swarm_capped {A : Type} (files : List A) (cap fuel : ℕ) (hc : cap < 500) :
    swarmPages (fun pos => (files.drop pos).take cap) (fuel + 1) 0 = some (files.take cap) := by
  unfold swarmPages
  rw [if_neg]
  · rfl
  · rw [List.length_take]; omega

/-! ## Concrete cases -/

/-- a listing of two files -/
def demoOld : List Remote := [⟨['a'], [1, 2, 3], 1000⟩, ⟨['b'], [4], 1001⟩]
/-- a new version of the first, the second gone, a third -/
def demoNew : List Remote := [⟨['a'], [9], 5000⟩, ⟨['c'], [7], 4000⟩]
/-- transfers in two pieces -/
def demoX (rs : List Remote) : Str → Transfer := fun n =>
  ⟨(rs.find? fun r => r.name = n).elim [] fun r => [r.data.take 1, r.data.drop 1], fun k => 2000 + k⟩

/-- the hypotheses of `mirror_history` hold for a history with a first run, a new listing and a second run -/
example : Mirrored demoNew
    (after (id : Bytes → Bytes) ⟨demoOld, fun _ => none⟩ ([.run {} (demoX demoOld), .publish demoNew] ++
      [.run {} (demoX demoNew)])).disk := by
  have hd : ∀ rs, rs = demoOld ∨ rs = demoNew → Delivers (demoX rs) rs := by
    rintro rs (rfl | rfl) <;> · intro r hr; simp [demoOld, demoNew] at hr; rcases hr with rfl | rfl <;> rfl
  have he : ∀ (n : ℤ), even (n : ℚ) = 2 * (n / 2) := by
    intro n
    unfold even
    congr 1
    have := Rat.floor_intCast_div_natCast n 2
    exact_mod_cast this
  refine mirror_history id demoOld (fun _ => none) [.run {} (demoX demoOld), .publish demoNew] ?_ ?_ ?_ ?_ {} rfl
    (demoX demoNew) (hd demoNew (Or.inr rfl))
  · exact ⟨hd demoOld (Or.inl rfl), trivial⟩
  · constructor
    · intro l hl
      simp only [publications, List.mem_cons, List.not_mem_nil, or_false] at hl
      rcases hl with rfl | rfl <;> simp [Unique, demoOld, demoNew]
    · simp only [publications, List.pairwise_cons, List.mem_cons, List.not_mem_nil, or_false, forall_eq, false_imp_iff,
        implies_true, List.Pairwise.nil, and_true]
      intro r hr s hs
      simp only [demoOld, demoNew, List.mem_cons, List.not_mem_nil, or_false] at hr hs
      rcases hr with rfl | rfl <;> rcases hs with rfl | rfl <;> intro hn
      · left
        have h1 := he 1000; have h2 := he 5000
        norm_num at h1 h2 ⊢
        rw [h1, h2]; norm_num
      all_goals simp at hn
  · intro l _ l' _ r _ s _ h; exact h
  · intro _ _ _ _; rfl

/-- the hypotheses of `crash_kept`: interrupted after the first of two pieces, the copy stays `[1]` for ever -/
example (runs : List (Opts × (Str → Transfer))) (h : ∀ q ∈ runs, q.1.CHECKSUM = false ∧ q.1.CLOBBER = false) :
    (after (id : Bytes → Bytes) ⟨demoOld, fun _ => none⟩ (.crash {} (demoX demoOld) 0 2 :: runs.map fun q =>
      .run q.1 q.2)).disk ['a'] = some ⟨[1], 2001⟩ := by
  have := crash_kept (id : Bytes → Bytes) {} rfl (demoX demoOld) 0 1 ⟨demoOld, fun _ => none⟩
    (by simp [Unique, demoOld]) ⟨['a'], [1, 2, 3], 1000⟩ rfl rfl (by decide)
    (by
      unfold even
      have : ((1000 : ℚ) / 2) ≤ (demoX demoOld ['a']).clock 1 / 2 := by norm_num [demoX]
      have := Int.floor_le_floor this
      dsimp only
      omega) runs h
  rw [this]
  norm_num [demoX, demoOld]

example : gzipCopy false (some 11) 7 ⟨1234567890, [1, 2, 3, 4, 5]⟩ none =
    some (some ⟨[0x1f, 0x8b, 8, 8, 0xd2, 0x02, 0x96, 0x49, 1, 2, 3], 7⟩) := rfl

example : tarMonth false [⟨['a'], [1], 1⟩, ⟨['b'], [2], 2⟩] (some [⟨['a'], [1], 1⟩]) = some [⟨['a'], [1], 1⟩] := rfl

example : swarmPages (fun pos => ((List.range 700).drop pos).take 500) 2 0 = some (List.range 700) :=
  swarm_complete (List.range 700) 2 (by simp)

end Verif.Sync
