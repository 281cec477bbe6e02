import Verif.Graz.Lemmas
import Verif.Gfc.Props

/-!
# Property C119: the mirror of the files from Graz
-/
namespace Verif.Graz
open Verif.Names Verif.Sync

/-- specification: the folder of each dealiasing product -/
def table : List (String × String) :=
  [("atmosphere", "GAA"), ("ocean", "GAB"), ("dealiasing", "GAC"), ("oceanBottomPressure", "GAD")]

/-- the parts of a name that are found -/
theorem itsg_last (n : Gfc.ItsgName) (h : n.Ok true) :
    ∃ c, (findall rx n.text).getLast? = some c ∧ group c 2 = n.prod := by
  obtain ⟨c, hc, -, -, -, g2⟩ := Gfc.first_itsg_all true n h
  refine ⟨c, ?_, g2⟩
  unfold rx
  rw [Gfc.findall_whole (Gfc.itsgRe true) n.text c hc (Gfc.text_ne_itsg n) (Gfc.runs_itsg_nil true)]
  rfl

/-- C119: a file from Graz with one of the four dealiasing products, spelled as on the server, goes to the folder of the
product, whatever prefix, truncation and date -/
theorem folder_of_product (n : Gfc.ItsgName) (h : n.Ok true) (p ds : String) (hp : (p, ds) ∈ table)
    (e : n.prod = p.toList) : folderOf n.text = .ok ds := by
  obtain ⟨c, hc, g2⟩ := itsg_last n h
  unfold folderOf
  rw [hc]
  dsimp only
  rw [g2, e]
  unfold table at hp
  simp only [List.mem_cons, Prod.mk.injEq, List.not_mem_nil, or_false] at hp
  rcases hp with ⟨rfl, rfl⟩ | ⟨rfl, rfl⟩ | ⟨rfl, rfl⟩ | ⟨rfl, rfl⟩ <;> rfl

/-- C119: any other product among the dealiasing files, also one of the four in other capitals, raises `KeyError`,
although the pattern accepts it -/
theorem folder_of_other (n : Gfc.ItsgName) (h : n.Ok true) (e : ∀ p ∈ table, n.prod ≠ p.1.toList) :
    folderOf n.text = .error .key := by
  obtain ⟨c, hc, g2⟩ := itsg_last n h
  unfold folderOf
  rw [hc]
  dsimp only
  have : dealiasing n.prod = none := by
    unfold dealiasing
    rw [List.lookup_eq_none_iff]
    intro p hp
    simp only [List.mem_cons, List.not_mem_nil, or_false] at hp
    simp only [bne_iff_ne, ne_eq]
    rcases hp with rfl | rfl | rfl | rfl
    · exact e ("atmosphere", "GAA") (by simp [table])
    · exact e ("ocean", "GAB") (by simp [table])
    · exact e ("dealiasing", "GAC") (by simp [table])
    · exact e ("oceanBottomPressure", "GAD") (by simp [table])
  rw [g2, this]

theorem folder_ne_fields (n : Name) (ds : String) (h : folderOf n = .ok ds) : ds ≠ "GSM" := by
  unfold folderOf at h
  rcases hl : (findall rx n).getLast? with _ | c
  · rw [hl] at h; simp at h
  rw [hl] at h
  dsimp only at h
  rcases hd : dealiasing (group c 2) with _ | d
  · rw [hd] at h; simp at h
  rw [hd] at h
  dsimp only at h
  obtain rfl : d = ds := Except.ok.inj h
  unfold dealiasing at hd
  have hm : d ∈ ["GAA", "GAB", "GAC", "GAD"] := by
    simp only [List.lookup] at hd
    repeat' split at hd
    all_goals first
      | (cases hd; done)
      | (cases hd; simp)
  intro e
  subst e
  exact absurd hm (by decide)

/-- the names of a remote directory differ -/
def Distinct (rs : List Remote) : Prop := rs.Pairwise fun a b => a.name ≠ b.name

variable (w : Env) (o : Opts)

theorem kept_fields (v : String) (rs : List Remote) (s : Store) (q : String × String) (n : Name) (hn : n ≠ indexName) :
    kept (fields w o v rs s) q n = kept (rs.foldl (fetch w o (v, "GSM")) (mkdir s (v, "GSM"))) q n := by
  unfold fields
  rw [kept_indices w v n hn q]

/-- C119: the run ends without error exactly when the release is one of the four, both remote directories can be listed,
and every dealiasing file has a folder -/
theorem sync_ok_iff (srv : Server) (release : String) (lmax : ℕ) (s : Store) :
    (sync w o srv release lmax s).2 = none ↔
      (∃ v, drel release = some v) ∧ (∃ ms, srv.monthly release lmax = some ms) ∧
        ∃ bs, srv.dealias release = some bs ∧
          ∀ r ∈ bs, searches r.name = true → ∃ ds, folderOf r.name = .ok ds := by
  have hb : ∀ (bs : List Remote), (background w o (drel release) (listing bs) s).2 = none ↔
      ∀ r ∈ bs, searches r.name = true → (∃ ds, folderOf r.name = .ok ds) ∧ drel release ≠ none := by
    intro bs
    rw [background_ok]
    constructor
    · intro h r h1 h2; exact h r ((mem_listing bs r).2 ⟨h1, h2⟩)
    · intro h r hr
      obtain ⟨h1, h2⟩ := (mem_listing bs r).1 hr
      exact h r h1 h2
  unfold sync
  rcases hd : srv.dealias release with _ | bs
  · simp
  dsimp only
  have hb := hb bs
  rcases hbg : background w o (drel release) (listing bs) s with ⟨s1, _ | e⟩
  · rw [hbg] at hb
    dsimp only at hb ⊢
    have hb := hb.1 rfl
    rcases hm : srv.monthly release lmax with _ | ms
    · simp
    dsimp only
    rcases hv : drel release with _ | v
    · simp
    · simp only [true_iff]
      exact ⟨⟨v, rfl⟩, ⟨ms, rfl⟩, bs, rfl, fun r h1 h2 => (hb r h1 h2).1⟩
  · rw [hbg] at hb
    dsimp only at hb ⊢
    simp only [reduceCtorEq, false_iff] at hb ⊢
    rintro ⟨⟨v, hv⟩, -, bs', e', hall⟩
    obtain rfl := Option.some.inj e'
    apply hb
    intro r h1 h2
    exact ⟨hall r h1 h2, by rw [hv]; simp⟩

/-- a run without error: its parts -/
theorem sync_parts (srv : Server) (release : String) (lmax : ℕ) (s s' : Store)
    (h : sync w o srv release lmax s = (s', none)) :
    ∃ v bs ms s1, drel release = some v ∧ srv.dealias release = some bs ∧ srv.monthly release lmax = some ms ∧
      background w o (some v) (listing bs) s = (s1, none) ∧ s' = fields w o v (listing ms) s1 := by
  unfold sync at h
  rcases hd : srv.dealias release with _ | bs
  · rw [hd] at h; simp at h
  rw [hd] at h
  dsimp only at h
  rcases hbg : background w o (drel release) (listing bs) s with ⟨s1, _ | e⟩
  · rw [hbg] at h
    dsimp only at h
    rcases hm : srv.monthly release lmax with _ | ms
    · rw [hm] at h; simp at h
    rw [hm] at h
    dsimp only at h
    rcases hv : drel release with _ | v
    · rw [hv] at h; simp at h
    · rw [hv] at h hbg
      dsimp only at h
      exact ⟨v, bs, ms, s1, rfl, rfl, rfl, hbg, ((Prod.mk.inj h).1).symm⟩
  · rw [hbg] at h; simp at h

theorem searched_ne_index (n : Name) (h : searches n = true) : n ≠ indexName := by
  rintro rfl
  rw [index_not_searched] at h
  exact absurd h (by simp)

/-- C119: what a run without error leaves.  Every dealiasing file that fits the pattern is in the folder of its product,
every field in `GSM`, transferred if it was missing or older than on the server (or with the overwriting option) and
otherwise as it was; no other file but the indices is touched, in this or any other version -/
theorem sync_files (srv : Server) (release : String) (lmax : ℕ) (s s' : Store)
    (h : sync w o srv release lmax s = (s', none)) (bs ms : List Remote) (hb : srv.dealias release = some bs)
    (hm : srv.monthly release lmax = some ms) (db : Distinct bs) (dm : Distinct ms) :
    ∃ v, drel release = some v ∧
      (∀ r ∈ bs, searches r.name = true → ∃ ds, folderOf r.name = .ok ds ∧
        kept s' (v, ds) r.name = pulled w o r (kept s (v, ds) r.name)) ∧
      (∀ r ∈ ms, searches r.name = true →
        kept s' (v, "GSM") r.name = pulled w o r (kept s (v, "GSM") r.name)) ∧
      (∀ k n, n ≠ indexName →
        (∀ r ∈ bs, searches r.name = true → ∀ ds, folderOf r.name = .ok ds → ¬ (k = (v, ds) ∧ n = r.name)) →
        (∀ r ∈ ms, searches r.name = true → ¬ (k = (v, "GSM") ∧ n = r.name)) →
        kept s' k n = kept s k n) := by
  obtain ⟨v, bs', ms', s1, hv, hb', hm', hbg, rfl⟩ := sync_parts w o srv release lmax s s' h
  rw [hb] at hb'; obtain rfl := Option.some.inj hb'
  rw [hm] at hm'; obtain rfl := Option.some.inj hm'
  obtain ⟨b1, b2, -⟩ := background_effect w o (some v) _ s s1 hbg (listing_distinct bs db)
  have F := fun q n => kept_fetches w o (v, "GSM") q n (listing ms) (mkdir s1 (v, "GSM")) (mkdir_some s1 _)
    (listing_distinct ms dm)
  refine ⟨v, hv, ?_, ?_, ?_⟩
  · intro r hr hs
    obtain ⟨v', ds, e, hf, -, hk⟩ := b1 r ((mem_listing bs r).2 ⟨hr, hs⟩)
    obtain rfl := Option.some.inj e
    refine ⟨ds, hf, ?_⟩
    rw [kept_fields w o v _ s1 _ _ (searched_ne_index _ hs), (F (v, ds) r.name).2, kept_mkdir, hk]
    intro b _ c
    exact folder_ne_fields _ _ hf (Prod.mk.inj c.1).2
  · intro r hr hs
    have hr' := (mem_listing ms r).2 ⟨hr, hs⟩
    rw [kept_fields w o v _ s1 _ _ (searched_ne_index _ hs), (F (v, "GSM") r.name).1 r hr' rfl rfl, kept_mkdir, b2]
    intro b _ v' ds e hf c
    exact folder_ne_fields _ _ hf (Prod.mk.inj c.1).2.symm
  · intro k n hn h1 h2
    rw [kept_fields w o v _ s1 _ _ hn, (F k n).2, kept_mkdir, b2]
    · intro r hr v' ds e hf
      obtain ⟨hr1, hr2⟩ := (mem_listing bs r).1 hr
      obtain rfl := Option.some.inj e
      exact h1 r hr1 hr2 ds hf
    · intro r hr
      obtain ⟨hr1, hr2⟩ := (mem_listing ms r).1 hr
      exact h2 r hr1 hr2

/-- C119: with the option to list only, no file but the indices changes -/
theorem sync_list (hl : o.LIST = true) (srv : Server) (release : String) (lmax : ℕ) (s s' : Store)
    (h : sync w o srv release lmax s = (s', none)) (bs ms : List Remote) (hb : srv.dealias release = some bs)
    (hm : srv.monthly release lmax = some ms) (db : Distinct bs) (dm : Distinct ms) (k : String × String) (n : Name)
    (hn : n ≠ indexName) : kept s' k n = kept s k n := by
  obtain ⟨v, hv, h1, h2, h3⟩ := sync_files w o srv release lmax s s' h bs ms hb hm db dm
  have hp : ∀ r f, pulled w o r f = f := by
    intro r f
    rw [pulled_eq, hl]
    simp
  by_cases c1 : ∃ r ∈ bs, searches r.name = true ∧ ∃ ds, folderOf r.name = .ok ds ∧ k = (v, ds) ∧ n = r.name
  · obtain ⟨r, hr, hs, ds, hf, rfl, rfl⟩ := c1
    obtain ⟨ds', hf', hk⟩ := h1 r hr hs
    rw [hf] at hf'
    obtain rfl := Except.ok.inj hf'
    rw [hk, hp]
  by_cases c2 : ∃ r ∈ ms, searches r.name = true ∧ k = (v, "GSM") ∧ n = r.name
  · obtain ⟨r, hr, hs, rfl, rfl⟩ := c2
    rw [h2 r hr hs, hp]
  · apply h3 k n hn
    · intro r hr hs ds hf c
      exact c1 ⟨r, hr, hs, ds, hf, c⟩
    · intro r hr hs c
      exact c2 ⟨r, hr, hs, c⟩

/-- a second transfer changes nothing -/
theorem pulled_twice (w' : Env) (hc : o.CLOBBER = false) (r : Remote) (f : Option LFile) (hl : o.LIST = false) :
    pulled w' o r (pulled w o r f) = pulled w o r f := by
  rw [pulled_eq w' o r, if_neg]
  rw [pulled_eq]
  have hl' : (!o.LIST) = true := by rw [hl]; rfl
  rw [hl', Bool.and_true, Bool.and_true]
  by_cases c : wanted (H := Utilities.Bytes) id { o with CHECKSUM := false } r f = true
  · rw [if_pos c]
    simp [wanted, test, hc]
  · rw [if_neg c]
    exact c

/-- C119: a second run with the same server changes no file but the times of the indices -/
theorem sync_twice (w' : Env) (hc : o.CLOBBER = false) (hl : o.LIST = false) (srv : Server) (release : String) (lmax : ℕ)
    (s s1 s2 : Store) (h1 : sync w o srv release lmax s = (s1, none)) (h2 : sync w' o srv release lmax s1 = (s2, none))
    (bs ms : List Remote) (hb : srv.dealias release = some bs)
    (hm : srv.monthly release lmax = some ms) (db : Distinct bs) (dm : Distinct ms) (k : String × String) (n : Name)
    (hn : n ≠ indexName) : kept s2 k n = kept s1 k n := by
  obtain ⟨v, hv, a1, a2, a3⟩ := sync_files w o srv release lmax s s1 h1 bs ms hb hm db dm
  obtain ⟨v', hv', b1, b2, b3⟩ := sync_files w' o srv release lmax s1 s2 h2 bs ms hb hm db dm
  rw [hv] at hv'
  obtain rfl := Option.some.inj hv'
  by_cases c1 : ∃ r ∈ bs, searches r.name = true ∧ ∃ ds, folderOf r.name = .ok ds ∧ k = (v, ds) ∧ n = r.name
  · obtain ⟨r, hr, hs, ds, hf, rfl, rfl⟩ := c1
    obtain ⟨d1, e1, k1⟩ := a1 r hr hs
    obtain ⟨d2, e2, k2⟩ := b1 r hr hs
    rw [hf] at e1 e2
    obtain rfl := Except.ok.inj e1
    obtain rfl := Except.ok.inj e2
    rw [k2, k1, pulled_twice w o w' hc r _ hl]
  by_cases c2 : ∃ r ∈ ms, searches r.name = true ∧ k = (v, "GSM") ∧ n = r.name
  · obtain ⟨r, hr, hs, rfl, rfl⟩ := c2
    rw [b2 r hr hs, a2 r hr hs, pulled_twice w o w' hc r _ hl]
  · apply b3 k n hn
    · intro r hr hs ds hf c
      exact c1 ⟨r, hr, hs, ds, hf, c⟩
    · intro r hr hs c
      exact c2 ⟨r, hr, hs, c⟩

end Verif.Graz
