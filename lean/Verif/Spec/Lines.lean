import Verif.Spec.Utf8
import Verif.Model.Json

/-! # Vocabulary: characters and lines of texts -/

namespace Egts
open Utf8

/-- A character that may stand in a line of text, in a web page and in a program: no control character, none of
`<`, `>`, `&`, and not the line separators U+2028 and U+2029. -/
def Harmless (n : Nat) : Prop :=
  32 ≤ n ∧ n ≠ 60 ∧ n ≠ 62 ∧ n ≠ 38 ∧ n ≠ 0x2028 ∧ n ≠ 0x2029

/-- A text of such characters, in UTF-8. -/
def OneLine (s : Bytes) : Prop := ∃ ns : List Nat, (∀ n ∈ ns, Scalar n ∧ Harmless n) ∧ s = ns.flatMap enc

/-- How much deeper a text ends than it begins. -/
def nesting : Bytes → Int
  | [] => 0
  | c :: r => (if c = 123 ∨ c = 91 then 1 else if c = 125 ∨ c = 93 then -1 else 0) + nesting r

/-- Every line is indented by `w` blanks for each bracket that is open at its beginning, not counting one
that is closed by the first character of the line. -/
def IndentedBy (w : Nat) (s : Bytes) : Prop :=
  ∀ (a : Bytes) (n : Nat) (c : UInt8) (r : Bytes), s = a ++ [10] ++ List.replicate n 32 ++ c :: r → c ≠ 32 →
    (n : Int) = w * (nesting a - if c = 125 ∨ c = 93 then 1 else 0)

end Egts
