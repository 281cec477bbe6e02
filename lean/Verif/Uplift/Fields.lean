import Verif.Uplift.Names

/-!
# The fields of an archive in the arrays of the month (C97)
-/
namespace Verif.Uplift
open Verif.Names Verif.Time Verif.Time.Spec Verif.Dealias
open Verif.GeoRead (pad2 pad4)

theorem mapM_some {A B : Type} (xs : List A) (f : A → Option B) (g : A → B) (h : ∀ x ∈ xs, f x = some (g x)) :
    xs.mapM f = some (xs.map g) := by
  induction xs with
  | nil => rfl
  | cons x xs ih => simp [List.mapM_cons, h x (by simp), ih fun y hy => h y (by simp [hy])]

theorem slots_ok (nt days d : ℕ) (h1 : 1 ≤ d) (h2 : d ≤ days) :
    (List.range nt).mapM (slot nt (nt * days) (d : ℤ)) = some (List.range' ((d - 1) * nt) nt) := by
  rw [mapM_some _ _ (fun c => (d - 1) * nt + c)]
  · congr 1
    rw [List.range'_eq_map_range]
  · intro c hc
    have hc := List.mem_range.1 hc
    obtain ⟨k, rfl⟩ : ∃ k, d = k + 1 := ⟨d - 1, by omega⟩
    have e : ((k + 1 : ℕ) : ℤ) - 1 = (k : ℤ) := by push_cast; ring
    have hb : k * nt + c < nt * days := by
      calc k * nt + c < k * nt + nt := by omega
        _ = nt * (k + 1) := by ring
        _ ≤ nt * days := Nat.mul_le_mul_left _ h2
    unfold slot
    simp only [e]
    have hb' : (0 : ℤ) ≤ (k : ℤ) * (nt : ℤ) + (c : ℤ) ∧ (k : ℤ) * (nt : ℤ) + (c : ℤ) < ((nt * days : ℕ) : ℤ) := by
      constructor
      · positivity
      · exact_mod_cast hb
    rw [if_pos hb']
    congr 1

theorem puts_ok (y m d : ℤ) (bs : List Block) : ∀ (b : ℕ) (s : Store),
    (∀ c blk, bs[c]? = some blk →
      (((List.range' b bs.length).zip bs).foldl (put y m d) s).cols (b + c) = some ⟨y, m, d, blk⟩) ∧
    (∀ t, (t < b ∨ b + bs.length ≤ t) → (((List.range' b bs.length).zip bs).foldl (put y m d) s).cols t = s.cols t) ∧
    (((List.range' b bs.length).zip bs).foldl (put y m d) s).last = ((bs.getLast?).map Block.rows).getD s.last := by
  induction bs with
  | nil => intro b s; exact ⟨by simp, by simp, rfl⟩
  | cons x bs ih =>
    intro b s
    have e : ((List.range' b (x :: bs).length).zip (x :: bs)).foldl (put y m d) s =
        ((List.range' (b + 1) bs.length).zip bs).foldl (put y m d) (put y m d s (b, x)) := by
      rw [List.length_cons, List.range'_succ]; rfl
    rw [e]
    obtain ⟨i1, i2, i3⟩ := ih (b + 1) (put y m d s (b, x))
    refine ⟨?_, ?_, ?_⟩
    · intro c blk hc
      cases c with
      | zero =>
        rw [i2 (b + 0) (Or.inl (by omega))]
        simp only [List.getElem?_cons_zero, Option.some.injEq] at hc
        subst hc
        simp [put]
      | succ c =>
        rw [show b + (c + 1) = b + 1 + c by omega]
        exact i1 c blk (by simpa using hc)
    · intro t ht
      rw [List.length_cons] at ht
      rw [i2 t (by omega)]
      have : t ≠ b := by omega
      simp [put, Function.update_of_ne this]
    · rw [i3]
      cases bs with
      | nil => rfl
      | cons z zs =>
        rw [List.getLast?_cons_cons]
        rw [List.getLast?_eq_some_getLast (by simp)]
        rfl

/-- the column of a field -/
def colOf (P : List (ℕ × ℕ)) (y m : ℕ) (d : ℕ) (h : Hour) : Column := ⟨y, m, d, ⟨h.h, rowsOf P h⟩⟩

/-- the daily files of an archive fill the positions of their days, nothing else -/
theorem readArchive_ok (prod : Name) (P : List (ℕ × ℕ)) (nt days y m : ℕ) (hnt : nt ≠ 0) (files : List (Day × Member)) : ∀ s : Store,
    (∀ f ∈ files, FileOf prod P f.1 f.2 ∧ f.1.y = y ∧ f.1.m = m ∧ f.1.hours.length = nt ∧ 1 ≤ f.1.d ∧ f.1.d ≤ days) →
    (files.map fun f => f.1.d).Nodup →
    ∃ s', readArchive prod P.length nt (nt * days) y m s (files.map Prod.snd) = .ok s' ∧
      (files ≠ [] → ∃ h, s'.last = rowsOf P h) ∧
      (∀ f ∈ files, ∀ (c : ℕ) h, f.1.hours[c]? = some h → s'.cols ((f.1.d - 1) * nt + c) = some (colOf P y m f.1.d h)) ∧
      (∀ t, (∀ f ∈ files, t < (f.1.d - 1) * nt ∨ (f.1.d - 1) * nt + nt ≤ t) → s'.cols t = s.cols t) := by
  induction files with
  | nil => intro s _ _; exact ⟨s, rfl, by simp, by simp, fun _ _ => rfl⟩
  | cons f files ih =>
    intro s hf hnd
    obtain ⟨⟨⟨rel, gz, hr, hname⟩, hy4, hm2, hd2, rest, ht⟩, hy, hm, hh, hd1, hdd⟩ := hf f (by simp)
    rw [List.map_cons, List.nodup_cons] at hnd
    have hb := blocks_read prod P.length rest _ _ ht
    rw [List.length_map, hh] at hb
    set bs : List Block := f.1.hours.map fun g => (⟨g.h, rowsOf P g⟩ : Block) with hbs
    have hlen : bs.length = nt := by rw [hbs, List.length_map, hh]
    obtain ⟨p1, p2, p3⟩ := puts_ok y m f.1.d bs ((f.1.d - 1) * nt) s
    rw [hlen] at p1 p2 p3
    set s1 := ((List.range' ((f.1.d - 1) * nt) nt).zip bs).foldl (put y m f.1.d) s with hs1
    obtain ⟨s', h1, h2, h3, h4⟩ := ih s1 (fun g hg => hf g (by simp [hg])) hnd.2
    have hread : readArchive prod P.length nt (nt * days) y m s ((f :: files).map Prod.snd) = .ok s' := by
      rw [List.map_cons, readArchive, hname, member_day _ _ _ hd2 rel hr gz]
      simp only
      unfold readDay
      rw [slots_ok nt days f.1.d hd1 hdd, hb]
      simp only
      rw [← hs1]
      exact h1
    have hlast1 : ∃ h, s1.last = rowsOf P h := by
      rw [p3]
      have hne : f.1.hours ≠ [] := by
        intro e; rw [e] at hh; simp at hh; omega
      refine ⟨f.1.hours.getLast hne, ?_⟩
      rw [hbs, List.getLast?_map, List.getLast?_eq_some_getLast hne]
      rfl
    refine ⟨s', hread, ?_, ?_, ?_⟩
    · intro _
      cases files with
      | nil =>
        simp only [List.map_nil, readArchive, Res.ok.injEq] at h1
        rw [← h1]; exact hlast1
      | cons g gs => exact h2 (by simp)
    · intro g hg c h hc
      rcases List.mem_cons.1 hg with rfl | hg
      · have hcn : c < nt := by
          have := (List.getElem?_eq_some_iff.1 hc).1
          omega
        rw [h4 _ ?_]
        · rw [p1 c ⟨h.h, rowsOf P h⟩ (by rw [hbs, List.getElem?_map, hc]; rfl)]
          rfl
        · intro q hq
          have hne : q.1.d ≠ g.1.d := by
            intro e; apply hnd.1; rw [← e]; exact List.mem_map.2 ⟨q, hq, rfl⟩
          obtain ⟨-, -, -, -, hq1, -⟩ := hf q (by simp [hq])
          rcases Nat.lt_or_gt_of_ne hne with hlt | hlt
          · right
            have : (q.1.d - 1) + 1 ≤ g.1.d - 1 := by omega
            have := Nat.mul_le_mul_right nt this
            rw [Nat.add_mul] at this
            omega
          · left
            have : (g.1.d - 1) + 1 ≤ q.1.d - 1 := by omega
            have := Nat.mul_le_mul_right nt this
            rw [Nat.add_mul] at this
            omega
      · exact h3 g hg c h hc
    · intro t htt
      rw [h4 t fun q hq => htt q (by simp [hq])]
      exact p2 t (htt f (by simp))

end Verif.Uplift
