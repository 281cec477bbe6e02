import Verif.Sync.Model

/-!
# C79: archives of months written again

Companion of `tar_frozen`.
-/
namespace Verif.Sync

/-- **C79** with `CLOBBER` the archive of a month holds the files of the last run that found any -/
theorem tar_clobber (lists : List (List Remote)) :
    lists.foldl (fun loc fs => tarMonth true fs loc) none = lists.reverse.find? (fun fs => 0 < fs.length) := by
  suffices h : ∀ (ls : List (List Remote)) a, ls.foldl (fun loc fs => tarMonth true fs loc) a =
      (ls.reverse.find? (fun fs => 0 < fs.length)).or a by
    rw [h lists none, Option.or_none]
  intro ls
  induction ls with
  | nil => intro a; rfl
  | cons l ls ih =>
    intro a
    rw [List.foldl_cons, ih, List.reverse_cons, List.find?_append, Option.or_assoc]
    congr 1
    by_cases h : 0 < l.length <;> simp [tarMonth, h]

/-- the second listing replaces the first, an empty one does not -/
example (r s : Remote) : [[r], [r, s], []].foldl (fun loc fs => tarMonth true fs loc) none = some [r, s] := by
  rw [tar_clobber]; rfl

end Verif.Sync
