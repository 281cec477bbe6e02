import Verif.Fetch.Span
import Verif.Utilities.Files

/-!
# Downloads of auxiliary files: ftp server, dated copies, laser ranging interferometer (C109)
-/
namespace Verif.Fetch
open Verif.Utilities Verif.GeoRead

variable (w : World)

/-! ## GeoForschungsZentrum -/

/-- one file, by its path on the server -/
def ftpAt (u : Str) (p : Path) : Prog := fun s =>
  match fromFtp w.H w.other (w.clock s.1) s.2 p (w.ftp s.1 u) with
  | (d, .ok _) => ((s.1 + 1, d), none)
  | (d, .error e) => ((s.1 + 1, d), some e)

theorem gfz_table : gfzFiles.map (fun f => (path f.1, path f.2)) = gfzTable.map fun r => (r.1.toList, r.2.toList) := by decide +kernel

theorem gfz_shape : ∀ f ∈ gfzFiles, (∃ a, f.2 = [a] ∧ a.head? ≠ some '/') ∨
    ∃ a, f.2 = ["geocenter".toList, a] ∧ a.head? ≠ some '/' := by
  intro f hf
  simp only [gfzFiles, List.map_cons, List.map_nil, List.mem_cons, List.not_mem_nil, or_false] at hf
  rcases hf with rfl | rfl | rfl
  · exact Or.inl ⟨_, rfl, by decide +kernel⟩
  · exact Or.inl ⟨_, rfl, by decide +kernel⟩
  · exact Or.inr ⟨_, rfl, by decide +kernel⟩

theorem gfz_path (dir : Str) (f : List Str × List Str) (hf : f ∈ gfzFiles) : path (dir :: f.2) = path [dir, path f.2] := by
  rcases gfz_shape f hf with ⟨a, h, h1⟩ | ⟨a, h, h1⟩
  · rw [h]; rfl
  · rw [h, path_two dir _ a (by decide) h1 (by decide) (by decide)]
    have : path ["geocenter".toList, a] = "geocenter".toList ++ '/' :: a := by
      unfold path join
      simp only [List.foldl_cons, List.foldl_nil, Option.getD_some, joinStep, h1, if_false]
      rw [if_neg (by decide)]
    rw [this]

theorem gfz_loop (dir : Str) : fromGfz w dir = each (fun r => ftpAt w r.1.toList (below dir r.2)) gfzTable := by
  have h1 : fromGfz w dir = each (fun x : Str × Str => ftpAt w x.1 (path [dir, x.2])) (gfzFiles.map fun f => (path f.1, path f.2)) := by
    rw [each_map]
    unfold fromGfz
    apply each_congr
    intro f hf
    rw [gfz_path dir f hf]
    rfl
  rw [h1, gfz_table, each_map]
  rfl

theorem gfz_plain : ∀ r ∈ gfzTable, r.2.toList.head? ≠ some '/' := by decide +kernel

theorem gfz_inj : ∀ r ∈ gfzTable, ∀ r' ∈ gfzTable, r.2.toList = r'.2.toList → r = r' := by decide +kernel

theorem gfz_below (dir : Str) (r r' : String × String) (h : r ∈ gfzTable) (h' : r' ∈ gfzTable) (he : below dir r.2 = below dir r'.2) : r = r' :=
  gfz_inj r h r' h' (path_inj dir _ _ (gfz_plain r h) (gfz_plain r' h') he)

/-- a file that is downloaded: left alone if the contents are there, else contents and time of the server -/
def received (old : Option LFile) (b : Bytes) (t : ℚ) : Option LFile := if old.map LFile.data = some b then old else some ⟨b, t⟩

theorem hash_iff {C : Bytes → Prop} {H : Bytes → Str} (hH : Distinguishes H C) (d : Disk) (hd : Within C d) (p : Path) (b : Bytes) (hb : C b) :
    hashOf H d p = H b ↔ (d p).map LFile.data = some b := by
  unfold hashOf
  cases h : d p with
  | none => simpa using (hH.1 b).symm
  | some f =>
    simp only [Option.map_some, Option.some.injEq]
    exact ⟨fun e => hH.2 _ _ (hd p f h) hb e, fun e => by rw [e]⟩

theorem ftpAt_right {C : Bytes → Prop} (hH : Distinguishes w.H C) (u : Str) (p : Path) (b : Bytes) (hb : C b) (m : Str) (t : ℚ)
    (ht : unixTime w.other (m.drop 4) = some t) (s : State) (hw : w.ftp s.1 u = .file b m) (hd : Within C s.2) :
    ftpAt w u p s = ((s.1 + 1, Function.update s.2 p (received (s.2 p) b t)), none) ∧ Within C (Function.update s.2 p (received (s.2 p) b t)) := by
  have hi := hash_iff hH s.2 hd p b hb
  constructor
  · unfold ftpAt fromFtp
    rw [hw]
    simp only [ht]
    by_cases h : hashOf w.H s.2 p = w.H b
    · simp only [ne_eq, h, not_true_eq_false, if_false]
      unfold received
      rw [if_pos (hi.1 h), Function.update_eq_self]
    · simp only [ne_eq, h, not_false_eq_true, if_true]
      unfold received
      rw [if_neg (fun e => h (hi.2 e))]
  · intro q f hq
    by_cases hqp : q = p
    · subst hqp
      rw [Function.update_self] at hq
      unfold received at hq
      split_ifs at hq
      · exact hd q f hq
      · cases hq; exact hb
    · rw [Function.update_of_ne hqp] at hq
      exact hd q f hq

/-- a loop over files that the server has -/
theorem ftp_loop {C : Bytes → Prop} (hH : Distinguishes w.H C) (dir : Str) (page : Str → Bytes) (hC : ∀ u, C (page u)) (mdtm : Str → Str) (time : Str → ℚ)
    (R : List (String × String)) (hsub : ∀ r ∈ R, r ∈ gfzTable) (hn : R.Nodup)
    (hs : ∀ r ∈ R, (∀ k, w.ftp k r.1.toList = .file (page r.1.toList) (mdtm r.1.toList)) ∧
      unixTime w.other ((mdtm r.1.toList).drop 4) = some (time r.1.toList)) (s : State) (hd : Within C s.2) :
    (each (fun r => ftpAt w r.1.toList (below dir r.2)) R s).2 = none ∧
    Within C (each (fun r => ftpAt w r.1.toList (below dir r.2)) R s).1.2 ∧
    (∀ r ∈ R, (each (fun r => ftpAt w r.1.toList (below dir r.2)) R s).1.2 (below dir r.2) =
      received (s.2 (below dir r.2)) (page r.1.toList) (time r.1.toList)) ∧
    (∀ q, (∀ r ∈ R, q ≠ below dir r.2) → (each (fun r => ftpAt w r.1.toList (below dir r.2)) R s).1.2 q = s.2 q) := by
  induction R generalizing s with
  | nil => exact ⟨rfl, hd, by simp, fun _ _ => rfl⟩
  | cons r R ih =>
    obtain ⟨e1, e2⟩ := ftpAt_right w hH r.1.toList (below dir r.2) _ (hC r.1.toList) _ _ (hs r (by simp)).2 s ((hs r (by simp)).1 s.1) hd
    rw [List.nodup_cons] at hn
    obtain ⟨i1, i2, i3, i4⟩ := ih (fun a ha => hsub a (by simp [ha])) hn.2 (fun a ha => hs a (by simp [ha]))
      (s.1 + 1, Function.update s.2 (below dir r.2) (received (s.2 (below dir r.2)) (page r.1.toList) (time r.1.toList))) e2
    have hne : ∀ a ∈ R, below dir r.2 ≠ below dir a.2 := by
      intro a ha he
      have := gfz_below dir r a (hsub r (by simp)) (hsub a (by simp [ha])) he
      rw [this] at hn
      exact hn.1 ha
    have hrun : each (fun r => ftpAt w r.1.toList (below dir r.2)) (r :: R) s =
        each (fun r => ftpAt w r.1.toList (below dir r.2)) R
          (s.1 + 1, Function.update s.2 (below dir r.2) (received (s.2 (below dir r.2)) (page r.1.toList) (time r.1.toList))) := by
      simp only [each, andThen, e1]
    rw [hrun]
    refine ⟨i1, i2, ?_, ?_⟩
    · intro a ha
      rcases List.mem_cons.1 ha with rfl | ha
      · rw [i4 _ hne]; exact Function.update_self _ _ _
      · rw [i3 a ha]
        simp only
        rw [Function.update_of_ne (hne a ha).symm]
    · intro q hq
      rw [i4 q fun a ha => hq a (by simp [ha])]
      exact Function.update_of_ne (hq r (by simp)) _ _

/-- the ftp server has the three files, all the time, and says when they were changed -/
def FtpServes (page : Str → Bytes) (mdtm : Str → Str) (time : Str → ℚ) (R : List (String × String)) : Prop :=
  ∀ r ∈ R, (∀ k, w.ftp k r.1.toList = .file (page r.1.toList) (mdtm r.1.toList)) ∧
    unixTime w.other ((mdtm r.1.toList).drop 4) = some (time r.1.toList)

/-- **C109** after a run of `from_gfz` each of the three files is the one of the server: left alone if its contents were the same, else
with the contents and the time of the server; nothing else changes -/
theorem gfz_mirror {C : Bytes → Prop} (hH : Distinguishes w.H C) (dir : Str) (page : Str → Bytes) (hC : ∀ u, C (page u)) (mdtm : Str → Str)
    (time : Str → ℚ) (hs : FtpServes w page mdtm time gfzTable) (s : State) (hd : Within C s.2) :
    (fromGfz w dir s).2 = none ∧
    (∀ r ∈ gfzTable, (fromGfz w dir s).1.2 (below dir r.2) =
      if contents s.2 (below dir r.2) = some (page r.1.toList) then s.2 (below dir r.2) else some ⟨page r.1.toList, time r.1.toList⟩) ∧
    (∀ q, (∀ r ∈ gfzTable, q ≠ below dir r.2) → (fromGfz w dir s).1.2 q = s.2 q) := by
  rw [gfz_loop]
  obtain ⟨h1, -, h3, h4⟩ := ftp_loop w hH dir page hC mdtm time gfzTable (fun _ h => h) (by decide +kernel) hs s hd
  exact ⟨h1, h3, h4⟩

/-- **C109** a second run changes nothing -/
theorem gfz_again {C : Bytes → Prop} (hH : Distinguishes w.H C) (dir : Str) (page : Str → Bytes) (hC : ∀ u, C (page u)) (mdtm : Str → Str)
    (time : Str → ℚ) (hs : FtpServes w page mdtm time gfzTable) (s : State) (hd : Within C s.2) :
    (fromGfz w dir (fromGfz w dir s).1).1.2 = (fromGfz w dir s).1.2 := by
  have hw : Within C (fromGfz w dir s).1.2 := by
    rw [gfz_loop]
    exact (ftp_loop w hH dir page hC mdtm time gfzTable (fun _ h => h) (by decide +kernel) hs s hd).2.1
  obtain ⟨-, h2, h3⟩ := gfz_mirror w hH dir page hC mdtm time hs s hd
  obtain ⟨-, i2, i3⟩ := gfz_mirror w hH dir page hC mdtm time hs (fromGfz w dir s).1 hw
  funext q
  by_cases hq : ∃ r ∈ gfzTable, q = below dir r.2
  · obtain ⟨r, hr, rfl⟩ := hq
    rw [i2 r hr, if_pos]
    unfold contents
    rw [h2 r hr]
    split_ifs with h
    · exact h
    · rfl
  · exact i3 q fun r hr he => hq ⟨r, hr, he⟩

/-- **C109** the first file that cannot be received ends the run: the files before it are there, nothing else has changed; a file that
is received but whose time cannot be read is written and ends the run with a `TypeError` -/
theorem gfz_fails {C : Bytes → Prop} (hH : Distinguishes w.H C) (dir : Str) (page : Str → Bytes) (hC : ∀ u, C (page u)) (mdtm : Str → Str)
    (time : Str → ℚ) (R1 R2 : List (String × String)) (r : String × String) (hR : gfzTable = R1 ++ r :: R2)
    (hs : FtpServes w page mdtm time R1) (s : State) (hd : Within C s.2) :
    ((∀ k, w.ftp k r.1.toList = .refused) → (fromGfz w dir s).2 = some .connect ∧ (fromGfz w dir s).1.2 (below dir r.2) = s.2 (below dir r.2)) ∧
    ((∀ k, w.ftp k r.1.toList = .fails) → (fromGfz w dir s).2 = some .ftp ∧ (fromGfz w dir s).1.2 (below dir r.2) = s.2 (below dir r.2)) ∧
    (∀ m, (∀ k, w.ftp k r.1.toList = .file (page r.1.toList) m) → unixTime w.other (m.drop 4) = none →
      contents s.2 (below dir r.2) ≠ some (page r.1.toList) →
      (fromGfz w dir s).2 = some .type ∧ contents (fromGfz w dir s).1.2 (below dir r.2) = some (page r.1.toList)) ∧
    (((∀ k, w.ftp k r.1.toList = .refused) ∨ (∀ k, w.ftp k r.1.toList = .fails) ∨
      ∃ m, (∀ k, w.ftp k r.1.toList = .file (page r.1.toList) m) ∧ unixTime w.other (m.drop 4) = none ∧
        contents s.2 (below dir r.2) ≠ some (page r.1.toList)) →
      (∀ a ∈ R1, (fromGfz w dir s).1.2 (below dir a.2) =
        if contents s.2 (below dir a.2) = some (page a.1.toList) then s.2 (below dir a.2) else some ⟨page a.1.toList, time a.1.toList⟩) ∧
      (∀ q, (∀ a ∈ R1, q ≠ below dir a.2) → q ≠ below dir r.2 → (fromGfz w dir s).1.2 q = s.2 q)) := by
  have hnd : gfzTable.Nodup := by decide +kernel
  rw [hR, List.nodup_append] at hnd
  have hsub : ∀ a ∈ R1, a ∈ gfzTable := fun a ha => by rw [hR]; simp [ha]
  have hr : r ∈ gfzTable := by rw [hR]; simp
  have hne : ∀ a ∈ R1, below dir r.2 ≠ below dir a.2 := by
    intro a ha he
    have := gfz_below dir r a hr (hsub a ha) he
    exact hnd.2.2 a ha r (by simp) this.symm
  set job : String × String → Prog := fun r => ftpAt w r.1.toList (below dir r.2) with hjob
  obtain ⟨h1, h2, h3, h4⟩ := ftp_loop w hH dir page hC mdtm time R1 hsub hnd.1 hs s hd
  rw [← hjob] at h1 h2 h3 h4
  have hrun : ∀ t e, job r (each job R1 s).1 = (t, some e) → fromGfz w dir s = (t, some e) := by
    intro t e he
    rw [gfz_loop, ← hjob, hR, each_append]
    rcases h : each job R1 s with ⟨t', e'⟩
    rw [h] at h1 he
    simp only at h1
    subst h1
    simp only [andThen, h, each]
    simp only at he
    rw [he]
  set s1 := (each job R1 s).1 with hs1
  have hold : s1.2 (below dir r.2) = s.2 (below dir r.2) := h4 _ hne
  have c1 : (∀ k, w.ftp k r.1.toList = .refused) → fromGfz w dir s = ((s1.1 + 1, s1.2), some .connect) := by
    intro hw; apply hrun; simp only [hjob, ftpAt, hw, fromFtp]
  have c2 : (∀ k, w.ftp k r.1.toList = .fails) → fromGfz w dir s = ((s1.1 + 1, s1.2), some .ftp) := by
    intro hw; apply hrun; simp only [hjob, ftpAt, hw, fromFtp]
  have c3 : ∀ m, (∀ k, w.ftp k r.1.toList = .file (page r.1.toList) m) → unixTime w.other (m.drop 4) = none →
      contents s.2 (below dir r.2) ≠ some (page r.1.toList) → fromGfz w dir s =
        ((s1.1 + 1, Function.update s1.2 (below dir r.2) (some ⟨page r.1.toList, w.clock s1.1⟩)), some .type) := by
    intro m hw ht hc
    apply hrun
    have hh : hashOf w.H s1.2 (below dir r.2) ≠ w.H (page r.1.toList) := by
      intro e
      have := (hash_iff hH s1.2 h2 _ _ (hC _)).1 e
      rw [hold] at this
      exact hc this
    simp only [hjob, ftpAt, hw, fromFtp, ne_eq, hh, not_false_eq_true, if_true, ht]
  refine ⟨?_, ?_, ?_, ?_⟩
  · intro hw; rw [c1 hw]; exact ⟨rfl, hold⟩
  · intro hw; rw [c2 hw]; exact ⟨rfl, hold⟩
  · intro m hw ht hc; rw [c3 m hw ht hc]; exact ⟨rfl, by simp [contents]⟩
  · rintro (hw | hw | ⟨m, hw, ht, hc⟩)
    · rw [c1 hw]; exact ⟨h3, fun q hq _ => h4 q hq⟩
    · rw [c2 hw]; exact ⟨h3, fun q hq _ => h4 q hq⟩
    · rw [c3 m hw ht hc]
      refine ⟨fun a ha => ?_, fun q hq hqr => ?_⟩
      · simp only
        rw [Function.update_of_ne (hne a ha).symm]; exact h3 a ha
      · simp only
        rw [Function.update_of_ne hqr]; exact h4 q hq

/-- **C109** whatever the ftp server answers and wherever the run ends, only the three files change -/
theorem gfz_safe (dir : Str) (s : State) (q : Path) (hq : ∀ r ∈ gfzTable, q ≠ below dir r.2) : (fromGfz w dir s).1.2 q = s.2 q := by
  rw [gfz_loop]
  have h := safe_each (fun r : String × String => ftpAt w r.1.toList (below dir r.2)) (fun r => [below dir r.2]) gfzTable
    fun r _ => safe_ftp w [r.1.toList] _
  apply h s q
  intro hm
  obtain ⟨r, hr, h⟩ := List.mem_flatMap.1 hm
  rw [List.mem_singleton] at h
  exact hq r hr h

/-! ## Goddard Space Flight Center -/

theorem gsfc_get {C : Bytes → Prop} (hH : Distinguishes w.H C) (dir host : Str) (b : Bytes) (hb : C b) (s : State) (hd : Within C s.2)
    (hw : w.web s.1 (path [host, gsfcName]) = .gives b) :
    fromHttp w.H (w.clock s.1) s.2 (path [dir, gsfcName]) (w.web s.1 (path [host, gsfcName])) =
      (Function.update s.2 (path [dir, gsfcName]) (received (s.2 (path [dir, gsfcName])) b (w.clock s.1)), .ok b) := by
  have hi := hash_iff hH s.2 hd (path [dir, gsfcName]) b hb
  rw [hw]
  unfold fromHttp received
  by_cases h : hashOf w.H s.2 (path [dir, gsfcName]) = w.H b
  · simp only [ne_eq, h, not_true_eq_false, if_false]
    rw [if_pos (hi.1 h), Function.update_eq_self]
  · simp only [ne_eq, h, not_false_eq_true, if_true]
    rw [if_neg (fun e => h (hi.2 e))]

/-- **C109** without `copy`, `from_gsfc` brings the file up to date and changes no other; a failed download changes nothing -/
theorem gsfc_mirror {C : Bytes → Prop} (hH : Distinguishes w.H C) (textOf : Bytes → List Str) (dir host : Str) (s : State) (hd : Within C s.2) :
    (∀ b, C b → w.web s.1 (path [host, gsfcName]) = .gives b →
      (fromGsfc w textOf dir host false s).2 = none ∧
      (fromGsfc w textOf dir host false s).1.2 (path [dir, "gsfc_slr_5x5c61s61.txt".toList]) =
        (if contents s.2 (path [dir, "gsfc_slr_5x5c61s61.txt".toList]) = some b then s.2 (path [dir, "gsfc_slr_5x5c61s61.txt".toList])
          else some ⟨b, w.clock s.1⟩) ∧
      ∀ q, q ≠ path [dir, "gsfc_slr_5x5c61s61.txt".toList] → (fromGsfc w textOf dir host false s).1.2 q = s.2 q) ∧
    (w.web s.1 (path [host, "gsfc_slr_5x5c61s61.txt".toList]) = .fails → ∀ copy, (fromGsfc w textOf dir host copy s).2 = some .download ∧
      (fromGsfc w textOf dir host copy s).1.2 = s.2) := by
  constructor
  · intro b hb hw
    unfold fromGsfc
    rw [gsfc_get w hH dir host b hb s hd hw]
    refine ⟨rfl, ?_, ?_⟩
    · show Function.update _ _ _ _ = _
      exact Function.update_self _ _ _
    · intro q hq
      exact Function.update_of_ne hq _ _
  · intro hw copy
    unfold fromGsfc
    have hw' : w.web s.1 (path [host, gsfcName]) = .fails := hw
    rw [hw']
    exact ⟨rfl, rfl⟩

/-- the copy has another name -/
theorem copy_ne (dir t : Str) : path [dir, "GSFC_SLR_5x5c61s61_".toList ++ t] ≠ path [dir, gsfcName] := by
  intro h
  have := path_inj dir _ _ (by simp) (by decide +kernel) h
  have e1 : ("GSFC_SLR_5x5c61s61_".toList ++ t).head? = some 'G' := by rw [List.head?_append]; rfl
  rw [this] at e1
  exact absurd e1 (by decide +kernel)

/-- **C109** with `copy`, a file with the line `Data span: ... D Mon YYYY ... D Mon YYYY ...` is copied, with its time, to a name with the
two months; nothing else changes; without that line, or with more than one, the run ends with a `ValueError` after the file has been
brought up to date -/
theorem gsfc_copy {C : Bytes → Prop} (hH : Distinguishes w.H C) (textOf : Bytes → List Str) (dir host : Str) (s : State) (hd : Within C s.2)
    (b : Bytes) (hb : C b) (hw : w.web s.1 (path [host, "gsfc_slr_5x5c61s61.txt".toList]) = .gives b) :
    contents (fromGsfc w textOf dir host true s).1.2 (path [dir, "gsfc_slr_5x5c61s61.txt".toList]) = some b ∧
    (∀ (before after : List Str) (u v x ds1 ds2 : Str) (m1 y1 m2 y2 : ℕ), IsDay ds1 m1 y1 → IsDay ds2 m2 y2 →
      (∀ c ∈ u ++ v ++ x, c.isDigit = false) → (∀ l ∈ before ++ after, ¬ "Data span:".toList <+: l) →
      textOf b = before ++ ("Data span:".toList ++ u ++ dayText ds1 m1 y1 ++ v ++ dayText ds2 m2 y2 ++ x) :: after →
      (fromGsfc w textOf dir host true s).2 = none ∧
      (fromGsfc w textOf dir host true s).1.2
          (path [dir, "GSFC_SLR_5x5c61s61_".toList ++ (pad4 y1 ++ pad2 m1 ++ "_".toList ++ pad4 y2 ++ pad2 m2 ++ ".txt".toList)]) =
        (fromGsfc w textOf dir host true s).1.2 (path [dir, "gsfc_slr_5x5c61s61.txt".toList]) ∧
      ∀ q, q ≠ path [dir, "gsfc_slr_5x5c61s61.txt".toList] →
        q ≠ path [dir, "GSFC_SLR_5x5c61s61_".toList ++ (pad4 y1 ++ pad2 m1 ++ "_".toList ++ pad4 y2 ++ pad2 m2 ++ ".txt".toList)] →
        (fromGsfc w textOf dir host true s).1.2 q = s.2 q) ∧
    (((textOf b).filter fun l => "Data span:".toList.isPrefixOf l).length ≠ 1 → (fromGsfc w textOf dir host true s).2 = some .value ∧
      ∀ q, q ≠ path [dir, "gsfc_slr_5x5c61s61.txt".toList] → (fromGsfc w textOf dir host true s).1.2 q = s.2 q) := by
  have hget := gsfc_get w hH dir host b hb s hd hw
  set d1 := Function.update s.2 (path [dir, gsfcName]) (received (s.2 (path [dir, gsfcName])) b (w.clock s.1)) with hd1
  have hself : contents d1 (path [dir, gsfcName]) = some b := by
    unfold contents
    rw [hd1, Function.update_self]
    unfold received
    split_ifs with h
    · exact h
    · rfl
  have hrun : fromGsfc w textOf dir host true s = (match copyName (textOf b) with
      | none => ((s.1 + 1, d1), some .value)
      | some n => ((s.1 + 1, Function.update d1 (path [dir, n]) (d1 (path [dir, gsfcName]))), none)) := by
    unfold fromGsfc
    rw [hget]
    rfl
  refine ⟨?_, ?_, ?_⟩
  · rw [hrun]
    cases hn : copyName (textOf b) with
    | none => exact hself
    | some n =>
      simp only
      unfold contents
      by_cases he : path [dir, gsfcName] = path [dir, n]
      · rw [← he, Function.update_eq_self]; exact hself
      · have hu : Function.update d1 (path [dir, n]) (d1 (path [dir, gsfcName])) (path [dir, gsfcName]) = d1 (path [dir, gsfcName]) :=
          Function.update_of_ne he _ _
        exact (congrArg (Option.map LFile.data) hu).trans hself
  · intro before after u v x ds1 ds2 m1 y1 m2 y2 h1 h2 hnd hpre ht
    have hn := gsfc_copyName before after u v x ds1 ds2 m1 y1 m2 y2 h1 h2 (fun c hc => hnd c (by simp [hc])) (fun c hc => hnd c (by simp [hc]))
      (fun c hc => hnd c (by simp [hc])) (fun l hl => hpre l (by simp [hl])) (fun l hl => hpre l (by simp [hl]))
    have hassoc : "GSFC_SLR_5x5c61s61_".toList ++ (pad4 y1 ++ pad2 m1) ++ "_".toList ++ (pad4 y2 ++ pad2 m2) ++ ".txt".toList =
        "GSFC_SLR_5x5c61s61_".toList ++ (pad4 y1 ++ pad2 m1 ++ "_".toList ++ pad4 y2 ++ pad2 m2 ++ ".txt".toList) := by
      simp only [List.append_assoc]
    rw [← ht, hassoc] at hn
    rw [hrun, hn]
    refine ⟨rfl, ?_, ?_⟩
    · exact (Function.update_self (β := fun _ => Option LFile) _ _ d1).trans
        (Function.update_of_ne (β := fun _ => Option LFile) (copy_ne dir _).symm _ d1).symm
    · intro q hq1 hq2
      simp only
      rw [Function.update_of_ne hq2]
      exact Function.update_of_ne hq1 _ _
  · intro hne
    rw [hrun, gsfc_noName _ hne]
    exact ⟨rfl, fun q hq => Function.update_of_ne hq _ _⟩

end Verif.Fetch
