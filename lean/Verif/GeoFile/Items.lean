import Verif.GeoFile.Doc

/-!
# Lemmas: the references
-/
namespace Verif.GeoFile
open Verif.SLR Verif.SpatialIO Verif.HarmIO Verif.MeanField

/-- the reference is absent (`None`), or it is one of those of the package other than that of the model `ICE6G`, or it is a
text that starts with a letter and has no hash and no colon with a blank behind it -/
def GoodReference (r : Option Line) : Prop :=
  r = none ∨ (∃ p ∈ giaReferences, p.1 ≠ "ICE6G" ∧ r = some p.2.2) ∨
    ∃ a s, r = some (a :: s) ∧ a.isAlpha = true ∧ (∀ c ∈ a :: s, c ≠ '#') ∧ colons (a :: s) = 0

theorem alpha_ok (a : Char) (h : a.isAlpha = true) : a ≠ ' ' ∧ a ∉ indicators := by
  constructor
  · rintro rfl; simp at h
  · intro hm
    have : ∀ c ∈ indicators, c.isAlpha = false := by decide +kernel
    rw [this a hm] at h; simp at h

/-- item of a sequence -/
def IsItem (r : Line) : Prop := ∃ k v, parseLine (item r) = some (some ⟨6, true, k, v⟩)

/-- decidable form -/
def isItem (r : Line) : Bool :=
  match parseLine (item r) with
  | some (some n) => n.indent == 6 && n.seq
  | _ => false

theorem isItem_of (r : Line) (h : isItem r = true) : IsItem r := by
  unfold isItem at h
  split at h
  · rename_i n hn
    simp only [Bool.and_eq_true, beq_iff_eq] at h
    obtain ⟨i, s, k, v⟩ := n
    refine ⟨k, v, ?_⟩
    rw [hn]
    simp only at h
    rw [h.1, h.2]
  · simp at h

/-- what is checked of a reference -/
def fine (r : Line) : Bool := isItem r && r.all fun c => c != '#'

theorem fine_spec (r : Line) (h : fine r = true) : isItem r = true ∧ ∀ c ∈ r, c ≠ '#' := by
  unfold fine at h
  rw [Bool.and_eq_true] at h
  exact ⟨h.1, fun c hc => by simpa using List.all_eq_true.1 h.2 c hc⟩

theorem fine_refSutterley : fine refSutterley = true := by decide +kernel
theorem fine_refSwenson : fine refSwenson = true := by decide +kernel
theorem fine_refFagiolini : fine refFagiolini = true := by decide +kernel
theorem fine_refCheng : fine refCheng = true := by decide +kernel
theorem fine_refLoomis : fine refLoomis = true := by decide +kernel
theorem fine_refLoomis30 : fine refLoomis30 = true := by decide +kernel
theorem fine_refKoenig : fine refKoenig = true := by decide +kernel
theorem fine_refCheng21 : fine refCheng21 = true := by decide +kernel
theorem fine_refDahle : fine refDahle = true := by decide +kernel
theorem fine_giaIvins : fine giaIvins = true := by decide +kernel
theorem fine_giaWhitehouse : fine giaWhitehouse = true := by decide +kernel
theorem fine_giaSimpson : fine giaSimpson = true := by decide +kernel
theorem fine_giaWu : fine giaWu = true := by decide +kernel
theorem fine_giaCaron : fine giaCaron = true := by decide +kernel
theorem fine_giaPeltierD : fine giaPeltierD = true := by decide +kernel
theorem fine_giaA13 : fine giaA13 = true := by decide +kernel
theorem fine_giaA13J : fine giaA13J = true := by decide +kernel
theorem peltier_hash : (giaPeltier.all fun c => c != '#') = true := by decide +kernel
theorem peltier_colons : 2 ≤ colons giaPeltier := by decide +kernel
theorem peltier_head : giaPeltier = 'W' :: giaPeltier.tail := by decide +kernel
theorem plain_citeIvins : Plain citeIvins := by decide +kernel
theorem plain_citePeltier : Plain citePeltier := by decide +kernel
theorem plain_citeWhitehouse : Plain citeWhitehouse := by decide +kernel
theorem plain_citeSimpson : Plain citeSimpson := by decide +kernel
theorem plain_citeWu : Plain citeWu := by decide +kernel
theorem plain_citeCaron : Plain citeCaron := by decide +kernel
theorem plain_citePeltierD : Plain citePeltierD := by decide +kernel
theorem plain_citeA13 : Plain citeA13 := by decide +kernel
theorem plain_citeA13J : Plain citeA13J := by decide +kernel

theorem fixed_items (r : Line) (h : r ∈ [refSutterley, refSwenson, refFagiolini, refCheng, refLoomis, refLoomis30, refKoenig,
    refCheng21, refDahle]) : isItem r = true ∧ ∀ c ∈ r, c ≠ '#' := by
  simp only [List.mem_cons, List.not_mem_nil, or_false] at h
  rcases h with h | h | h | h | h | h | h | h | h <;> rw [h] <;> apply fine_spec
  · exact fine_refSutterley
  · exact fine_refSwenson
  · exact fine_refFagiolini
  · exact fine_refCheng
  · exact fine_refLoomis
  · exact fine_refLoomis30
  · exact fine_refKoenig
  · exact fine_refCheng21
  · exact fine_refDahle

/-- the references of the package -/
theorem gia_spec (p : String × Line × Line) (h : p ∈ giaReferences) :
    (p.1 ≠ "ICE6G" → isItem p.2.2 = true) ∧ (∀ c ∈ p.2.2, c ≠ '#') ∧ Plain p.2.1 := by
  have key : ∀ (n : String) (c r : Line), fine r = true → Plain c → p = (n, c, r) →
      (p.1 ≠ "ICE6G" → isItem p.2.2 = true) ∧ (∀ c ∈ p.2.2, c ≠ '#') ∧ Plain p.2.1 := by
    intro n c r h1 h2 h3
    rw [h3]
    exact ⟨fun _ => (fine_spec r h1).1, (fine_spec r h1).2, h2⟩
  simp only [giaReferences, List.mem_cons, List.not_mem_nil, or_false] at h
  rcases h with h | h | h | h | h | h | h | h | h
  · exact key _ _ _ fine_giaIvins plain_citeIvins h
  · rw [h]
    exact ⟨fun hn => absurd rfl hn, fun c hc => by simpa using List.all_eq_true.1 peltier_hash c hc, plain_citePeltier⟩
  · exact key _ _ _ fine_giaWhitehouse plain_citeWhitehouse h
  · exact key _ _ _ fine_giaSimpson plain_citeSimpson h
  · exact key _ _ _ fine_giaWu plain_citeWu h
  · exact key _ _ _ fine_giaCaron plain_citeCaron h
  · exact key _ _ _ fine_giaPeltierD plain_citePeltierD h
  · exact key _ _ _ fine_giaA13 plain_citeA13 h
  · exact key _ _ _ fine_giaA13J plain_citeA13J h

theorem gia_ice6g (c r : Line) (h : ("ICE6G", c, r) ∈ giaReferences) : r = giaPeltier := by
  simp only [giaReferences, List.mem_cons, List.not_mem_nil, or_false, Prod.mk.injEq] at h
  rcases h with h | h | h | h | h | h | h | h | h
  · exact absurd h.1 (by decide)
  · exact h.2.2
  · exact absurd h.1 (by decide)
  · exact absurd h.1 (by decide)
  · exact absurd h.1 (by decide)
  · exact absurd h.1 (by decide)
  · exact absurd h.1 (by decide)
  · exact absurd h.1 (by decide)
  · exact absurd h.1 (by decide)

theorem good_item (r : Option Line) (h : GoodReference r) : IsItem (orNone r) := by
  rcases h with rfl | ⟨p, hp, hn, rfl⟩ | ⟨a, s, rfl, h1, h2, h3⟩
  · exact isItem_of _ (by decide +kernel)
  · exact isItem_of _ ((gia_spec p hp).1 hn)
  · obtain ⟨h4, h5⟩ := alpha_ok a h1
    obtain ⟨v, hv⟩ := item_zero a s h2 h4 h5 h3
    exact ⟨none, v, hv⟩

/-- the references are those of this list or the one of the GIA model -/
theorem references_mem (f : Info) (r : Line) (h : r ∈ references f) : r = orNone f.reference ∨
    r ∈ [refSutterley, refSwenson, refFagiolini, refCheng, refLoomis, refLoomis30, refKoenig, refCheng21, refDahle] := by
  unfold references at h
  simp only [List.mem_append, List.mem_cons, List.not_mem_nil, or_false] at h
  rcases h with ((h | h) | h) | h
  · rcases h with h | h | h
    · right; simp [h]
    · right; simp [h]
    · left; exact h
  · split_ifs at h
    · right; simp at h; simp [h]
    · simp at h
  · right
    split_ifs at h <;> simp at h
    · simp [h]
    · rcases h with h | h <;> simp [h]
    · simp [h]
  · right
    split_ifs at h <;> simp at h <;> simp [h]

theorem references_items (f : Info) (h : IsItem (orNone f.reference)) : ∀ r ∈ references f, IsItem r := by
  intro r hr
  rcases references_mem f r hr with rfl | h'
  · exact h
  · exact isItem_of r (fixed_items r h').1

end Verif.GeoFile
