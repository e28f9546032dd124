import Verif.Model.Go
import Mathlib.Data.List.Forall2

/-! # Vocabulary for the texts of C112 -/

namespace Egts

/-- `s` is the word `t` of small letters, in capital or small letters. -/
def SameLetters (s t : Bytes) : Prop := List.Forall₂ (fun c l => c = l ∨ c + 32 = l) s t

/-- `inf` or `infinity`. -/
def InfText (s : Bytes) : Prop := SameLetters s (go!"inf") ∨ SameLetters s (go!"infinity")

end Egts
