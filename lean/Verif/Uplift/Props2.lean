import Verif.Uplift.Props

/-!
# C97: the program for maps of elastic uplift
-/
namespace Verif.Uplift
open Verif.Names Verif.Time Verif.Time.Spec Verif.Dealias Verif.Harmonics Verif.Legendre
open Verif.GeoRead (pad2 pad4)

/-- an archive with its month -/
structure Item where
  a : Arch
  y : ℕ
  m : ℕ

/-- the output file of a month -/
def Item.out (j : Job) (x : Item) : Name :=
  "AOD1B_".toList ++ j.drel ++ "_".toList ++ j.dset ++ "_mmCU_".toList ++ pad4 x.y ++ "_".toList ++ pad2 x.m ++ ".".toList ++ suffixOf j.form

theorem out_inj (j : Job) (x z : Item) (hx : x.y < 10000 ∧ x.m < 100) (hz : z.y < 10000 ∧ z.m < 100) (h : x.out j = z.out j) :
    (x.y, x.m) = (z.y, z.m) := by
  unfold Item.out at h
  simp only [List.append_assoc] at h
  have h := List.append_cancel_left (List.append_cancel_left (List.append_cancel_left (List.append_cancel_left (List.append_cancel_left h))))
  obtain ⟨e1, e2⟩ := List.append_inj h (by simp [pad4])
  obtain ⟨e3, -⟩ := List.append_inj (List.append_cancel_left e2) (by simp [pad2])
  rw [pad4_inj _ _ hx.1 hz.1 e1, pad2_inj _ _ hx.2 hz.2 e3]

/-- what a run leaves behind: the files that were due are made and listed, everything else is as before -/
structure Outcome (eps : ℝ) (rise : ℕ → ℝ) (L nt : ℕ) (j : Job) (now : ℚ) (xs : List Item) (st st' : Disk) (listed : List Name) : Prop where
  made : ∀ x ∈ xs, Due (st (x.out j)) x.a.tar →
    ∃ g, st' (x.out j) = some (now, .maps g) ∧ IsUplift eps rise L nt j.lons j.lats x.a x.y x.m g
  kept : ∀ name, (∀ x ∈ xs, Due (st (x.out j)) x.a.tar → name ≠ x.out j) → st' name = st name
  names : ∀ name, name ∈ listed ↔ ∃ x ∈ xs, Due (st (x.out j)) x.a.tar ∧ name = x.out j

theorem loop_ok (eps scalef : ℝ) (hs : scalef ≠ 0) (E : Units.Earth) (hl kl ll : ℕ → ℝ) (f : ℕ → ℝ)
    (hf : upliftFactor E hl kl ll = some f) (j : Job) (hform : j.form ≠ .ascii) (hyears : Asked j.years) (nt L : ℕ) (hnt : nt ≠ 0)
    (hL : 2 ≤ L) (P : List (ℕ × ℕ)) (hP : Layout L P) (now : ℚ) (xs : List Item) : ∀ (st : Disk) (l0 : List Name),
    (∀ x ∈ xs, IsMonth j.dset P nt x.a x.y x.m ∧ Wanted j.years x.y) → (xs.map fun x => (x.y, x.m)).Nodup →
    ∃ st' listed, archLoop eps scalef f j nt L now (st, l0) (xs.map fun x => x.a.tar) = ((st', l0 ++ listed), .finished) ∧
      Outcome eps (rise E hl kl) L nt j now xs st st' listed := by
  induction xs with
  | nil =>
    intro st l0 _ _
    exact ⟨st, [], by simp [archLoop], ⟨by simp, by simp, by simp⟩⟩
  | cons x xs ih =>
    intro st l0 hx hnd
    rw [List.map_cons, List.nodup_cons] at hnd
    obtain ⟨hm, hw⟩ := hx x (by simp)
    have hrest : ∀ z ∈ xs, z.out j ≠ x.out j := by
      intro z hz e
      apply hnd.1
      have hmz := (hx z (by simp [hz])).1
      rw [← out_inj j z x ⟨hmz.year.2.1, by have := hmz.month.2; omega⟩ ⟨hm.year.2.1, by have := hm.month.2; omega⟩ e]
      exact List.mem_map.2 ⟨z, hz, rfl⟩
    obtain ⟨s1, s2⟩ := archive_step eps scalef hs E hl kl ll f hf j hform hyears nt L hnt hL P hP x.a x.y x.m hm hw now (st, l0)
    have hout : outName j (pad4 x.y) (pad2 x.m) = x.out j := rfl
    rw [hout] at s1 s2
    by_cases hd : Due (st (x.out j)) x.a.tar
    · obtain ⟨g, hg, hstep⟩ := s1 hd
      obtain ⟨st', listed, h1, h2⟩ := ih (Function.update st (x.out j) (some (now, .maps g))) (l0 ++ [x.out j])
        (fun z hz => hx z (by simp [hz])) hnd.2
      have hsame : ∀ z ∈ xs, Function.update st (x.out j) (some (now, Content.maps g)) (z.out j) = st (z.out j) := fun z hz =>
        Function.update_of_ne (hrest z hz) _ _
      refine ⟨st', x.out j :: listed, ?_, ?_, ?_, ?_⟩
      · rw [List.map_cons, archLoop, hstep]
        simp only [if_true]
        rw [h1, List.append_assoc]
        rfl
      · intro z hz hdz
        rcases List.mem_cons.1 hz with rfl | hz
        · refine ⟨g, ?_, hg⟩
          rw [h2.kept _ (fun q hq _ e => hrest q hq e.symm), Function.update_self]
        · exact h2.made z hz (by rw [hsame z hz]; exact hdz)
      · intro name hname
        rw [h2.kept name (fun q hq hdq => hname q (by simp [hq]) (by rw [← hsame q hq]; exact hdq)),
          Function.update_of_ne (hname x (by simp) hd)]
      · intro name
        rw [List.mem_cons, h2.names]
        constructor
        · rintro (rfl | ⟨q, hq, hdq, rfl⟩)
          · exact ⟨x, by simp, hd, rfl⟩
          · exact ⟨q, by simp [hq], by rw [← hsame q hq]; exact hdq, rfl⟩
        · rintro ⟨q, hq, hdq, rfl⟩
          rcases List.mem_cons.1 hq with rfl | hq
          · exact Or.inl rfl
          · exact Or.inr ⟨q, hq, by rw [hsame q hq]; exact hdq, rfl⟩
    · have hstep := s2 hd
      obtain ⟨st', listed, h1, h2⟩ := ih st l0 (fun z hz => hx z (by simp [hz])) hnd.2
      refine ⟨st', listed, ?_, ?_, ?_, ?_⟩
      · rw [List.map_cons, archLoop, hstep]
        simp only [if_true]
        exact h1
      · intro z hz hdz
        rcases List.mem_cons.1 hz with rfl | hz
        · exact absurd hdz hd
        · exact h2.made z hz hdz
      · intro name hname
        exact h2.kept name fun q hq hdq => hname q (by simp [hq]) hdq
      · intro name
        rw [h2.names]
        constructor
        · rintro ⟨q, hq, hdq, rfl⟩
          exact ⟨q, by simp [hq], hdq, rfl⟩
        · rintro ⟨q, hq, hdq, rfl⟩
          rcases List.mem_cons.1 hq with rfl | hq
          · exact absurd hdq hd
          · exact ⟨q, hq, hdq, rfl⟩

theorem perm_map_lift {A B : Type} (f : A → B) (zs : List A) (ts : List B) (h : ts.Perm (zs.map f)) :
    ∃ ys : List A, ys.map f = ts ∧ ys.Perm zs := by
  induction ts generalizing zs with
  | nil =>
    have : zs = [] := by simpa using h.symm.eq_nil
    exact ⟨[], rfl, by rw [this]⟩
  | cons t ts ih =>
    obtain ⟨z, hz, rfl⟩ := List.mem_map.1 (h.subset (by simp : t ∈ t :: ts))
    obtain ⟨p, q, rfl⟩ := List.append_of_mem hz
    have h2 : ts.Perm ((p ++ q).map f) := by
      rw [List.map_append, List.map_cons] at h
      rw [List.map_append]
      exact (h.trans List.perm_middle).cons_inv
    obtain ⟨ys, h3, h4⟩ := ih _ h2
    exact ⟨z :: ys, by rw [List.map_cons, h3], (h4.cons z).trans List.perm_middle.symm⟩

/-- C97: with netCDF or HDF5 output and one complete archive for each month, the program makes the files of all wanted months
whose maps are missing or older than the archive, changes no other file, and returns the names of the files it made.  Names that
are not those of archives are of no consequence -/
theorem uplift_program (eps scalef : ℝ) (hs : scalef ≠ 0) (E : Units.Earth) (hl kl ll : ℕ → ℝ) (j : Job) (hform : j.form ≠ .ascii)
    (hyears : Asked j.years) (hset : j.dset ∈ ["atm", "ocn", "glo", "oba"].map String.toList) (nt L : ℕ)
    (hrel : (j.drel ∈ ["RL01", "RL02", "RL03", "RL04", "RL05"].map String.toList ∧ nt = 4 ∧ L = 100) ∨
      (j.drel = "RL06".toList ∧ nt = 8 ∧ L = 180)) (P : List (ℕ × ℕ)) (hP : Layout L P) (xs : List Item)
    (hx : ∀ x ∈ xs, IsMonth j.dset P nt x.a x.y x.m) (hnd : (xs.map fun x => (x.y, x.m)).Nodup) (others : List Tar)
    (hothers : ∀ t ∈ others, ∀ r, t.name ≠ "AOD1B_".toList ++ r) (tars : List Tar)
    (ht : tars.Perm (others ++ xs.map fun x => x.a.tar)) (now : ℚ) (st : Disk) :
    ∃ st' listed, globalUplift eps scalef E hl kl ll j tars now st = ((st', listed), .finished) ∧
      ∀ ws : List Item, (∀ x, x ∈ ws ↔ x ∈ xs ∧ Wanted j.years x.y) → Outcome eps (rise E hl kl) L nt j now ws st st' listed := by
  classical
  have hrelease : releaseOf j.drel = some (nt, L) := by
    unfold releaseOf
    rcases hrel with ⟨h1, rfl, rfl⟩ | ⟨h1, rfl, rfl⟩
    · rw [if_pos h1]
    · rw [if_neg (by rw [h1]; decide), if_pos h1]
  have hnt : nt ≠ 0 := by rcases hrel with ⟨-, h, -⟩ | ⟨-, h, -⟩ <;> omega
  have hL : 2 ≤ L := by rcases hrel with ⟨-, -, h⟩ | ⟨-, -, h⟩ <;> omega
  obtain ⟨f, hf⟩ : ∃ f, upliftFactor E hl kl ll = some f := ⟨_, rfl⟩
  have hacc : ∀ x ∈ xs, accepts (archRe j.years) x.a.tar.name = true ↔ Wanted j.years x.y := by
    intro x hxx
    obtain ⟨rel, tgz, hr, hname⟩ := (hx x hxx).name
    rw [hname]
    exact arch_chosen j.years hyears x.y x.m ⟨(hx x hxx).year.1, (hx x hxx).year.2.1⟩ rel hr tgz
  have hrej : ∀ t ∈ others, accepts (archRe j.years) t.name = false := by
    intro t htt
    by_contra hc
    rw [Bool.not_eq_false] at hc
    unfold archRe at hc
    rw [accepts_whole _ (noEnd_archRe j.years)] at hc
    obtain ⟨u, nl, hs', -, hl'⟩ := hc
    simp only [lang_cat_cons, lang_lit] at hl'
    obtain ⟨v1, u1, rfl, rfl, -⟩ := hl'
    exact hothers t htt (u1 ++ nl) (by rw [hs', List.append_assoc])
  -- the archives that are read, with their months
  have hperm : (chosen j.years tars).Perm ((xs.filter fun x => accepts (archRe j.years) x.a.tar.name).map fun x => x.a.tar) := by
    unfold chosen
    refine (List.perm_insertionSort _ _).trans ?_
    refine (ht.filter _).trans ?_
    rw [List.filter_append, List.filter_eq_nil_iff.2 (fun t h => by simp [hrej t h]), List.nil_append, List.filter_map]
    rfl
  obtain ⟨ys, hys, hysp⟩ : ∃ ys : List Item, ys.map (fun x => x.a.tar) = chosen j.years tars ∧
      ys.Perm (xs.filter fun x => accepts (archRe j.years) x.a.tar.name) := by
    have h := hperm
    generalize chosen j.years tars = ts at h
    generalize xs.filter (fun x => accepts (archRe j.years) x.a.tar.name) = zs at h
    exact perm_map_lift (fun x : Item => x.a.tar) zs ts h
  have hmem : ∀ x, x ∈ ys ↔ x ∈ xs ∧ Wanted j.years x.y := by
    intro x
    rw [hysp.mem_iff, List.mem_filter]
    constructor
    · rintro ⟨h1, h2⟩; exact ⟨h1, (hacc x h1).1 h2⟩
    · rintro ⟨h1, h2⟩; exact ⟨h1, (hacc x h1).2 h2⟩
  have hnd2 : (ys.map fun x => (x.y, x.m)).Nodup := by
    rw [(hysp.map fun x => (x.y, x.m)).nodup_iff]
    exact hnd.sublist (List.filter_sublist.map _)
  obtain ⟨st', listed, h1, h2⟩ := loop_ok eps scalef hs E hl kl ll f hf j hform hyears nt L hnt hL P hP now ys st []
    (fun x hxy => ⟨hx x ((hmem x).1 hxy).1, ((hmem x).1 hxy).2⟩) hnd2
  refine ⟨st', listed, ?_, ?_⟩
  · unfold globalUplift
    rw [hrelease, hf]
    simp only
    rw [if_pos (by unfold isProduct; simpa using hset), ← hys, h1]
    simp
  · intro ws hws
    have hiff : ∀ x, x ∈ ws ↔ x ∈ ys := fun x => by rw [hws, hmem]
    exact ⟨fun x hxw => h2.made x ((hiff x).1 hxw), fun name hn => h2.kept name fun x hxy => hn x ((hiff x).2 hxy), fun name => by
      rw [h2.names]
      constructor
      · rintro ⟨x, hxy, r⟩; exact ⟨x, (hiff x).2 hxy, r⟩
      · rintro ⟨x, hxy, r⟩; exact ⟨x, (hiff x).1 hxy, r⟩⟩

/-- C97: an unknown release or product ends the program before anything is read or written -/
theorem uplift_refused (eps scalef : ℝ) (E : Units.Earth) (hl kl ll : ℕ → ℝ) (j : Job) (tars : List Tar) (now : ℚ) (st : Disk)
    (h : j.drel ∉ ["RL01", "RL02", "RL03", "RL04", "RL05", "RL06"].map String.toList ∨
      j.dset ∉ ["atm", "ocn", "glo", "oba"].map String.toList) :
    globalUplift eps scalef E hl kl ll j tars now st = ((st, []), .raised) := by
  unfold globalUplift
  rcases h with h | h
  · have : releaseOf j.drel = none := by
      unfold releaseOf
      rw [if_neg, if_neg]
      · intro e; apply h; rw [e]; decide
      · intro e; apply h
        simp only [List.map_cons, List.map_nil, List.mem_cons, List.not_mem_nil, or_false] at e ⊢
        tauto
    rw [this]
  · split
    · rw [if_neg (by unfold isProduct; simpa using h)]
    · rfl

end Verif.Uplift
