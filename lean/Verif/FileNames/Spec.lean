import Mathlib.Data.List.Forall2
import Verif.FileNames.Model
/-!
# Specification: what a user expects of a search without regard to case
-/
namespace Verif.FileNames

/-- the same letter in upper or lower case, or the same character -/
def SameLetter (a b : Char) : Prop :=
  a = b ∨ (∃ k < 26, (a = Char.ofNat (65 + k) ∧ b = Char.ofNat (97 + k)) ∨
    (a = Char.ofNat (97 + k) ∧ b = Char.ofNat (65 + k)))

/-- the same name apart from upper and lower case -/
def SameName (a b : Name) : Prop := List.Forall₂ SameLetter a b

/-- `g` begins with text that is read as `n`, where a full stop of `n` stands for any character on the line -/
def BeginsLike (n g : Name) : Prop :=
  ∃ a b, g = a ++ b ∧ List.Forall₂ (fun p c => (p = '.' ∧ c ≠ '\n') ∨ (p ≠ '.' ∧ SameLetter p c)) n a

/-- a name of ASCII characters without meaning in a regular expression (full stops are allowed) -/
def Plain (n : Name) : Prop := ∀ c ∈ n, c.toNat < 128 ∧ c ∉ ("*+?()[]{}|^$\\".toList)

/-- a name of ASCII characters -/
def Ascii (n : Name) : Prop := ∀ c ∈ n, c.toNat < 128

end Verif.FileNames
