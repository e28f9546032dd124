import Verif.Model.YamlText
import Verif.Spec.Cli
import Verif.Spec.Main

/-! # Specification vocabulary for the text of the configuration file -/

namespace Egts

/-- The text consists of these lines, with a line feed between them. -/
def HasLines (text : Bytes) (lines : List Bytes) : Prop :=
  lines ≠ [] ∧ (∀ l ∈ lines, (10 : UInt8) ∉ l) ∧ text = [(10 : UInt8)].intercalate lines

/-- Printable ASCII. -/
def Printable (text : Bytes) : Prop := ∀ c ∈ text, 32 ≤ c.toNat ∧ c.toNat ≤ 126

/-- Words that mean something other than themselves. -/
def Reserved (w : Bytes) : Prop :=
  w = go!"y" ∨ w = go!"yes" ∨ w = go!"on" ∨ w = go!"true" ∨ w = go!"n" ∨ w = go!"no" ∨ w = go!"off" ∨ w = go!"false" ∨ w = go!"null"

/-- A name of small letters and underscores. -/
def KeyName (key : Bytes) : Prop := key ≠ [] ∧ (∀ c ∈ key, 97 ≤ c.toNat ∧ c.toNat ≤ 122 ∨ c = 95) ∧ ¬ Reserved key

/-- How a value is written. -/
inductive ValueText : Bytes → Yaml → Prop
  | quoted (s : Bytes) (h : ∀ c ∈ s, c ≠ 34 ∧ c ≠ 92) : ValueText (go!"\"" ++ s ++ go!"\"") (.str s)
  | word (s : Bytes) (h0 : s ≠ []) (h : ∀ c ∈ s, 97 ≤ c.toNat ∧ c.toNat ≤ 122) (hr : ¬ Reserved s) : ValueText s (.str s)
  | number (s : Bytes) (n : Nat) (h : PlainDecimal s n) (hl : s.length ≤ 18) : ValueText s (.int n s)

/-- So many spaces. -/
def spaces (n : Nat) : Bytes := List.replicate n 32

/-- The lines say these keys and values, the keys being indented by the number of spaces given. -/
inductive Says : Nat → List Bytes → List (Bytes × Yaml) → Prop
  | nil (n : Nat) : Says n [] []
  | blank (n k : Nat) (ls : List Bytes) (ms : List (Bytes × Yaml)) (h : Says n ls ms) : Says n (spaces k :: ls) ms
  | comment (n k : Nat) (c : Bytes) (ls : List Bytes) (ms : List (Bytes × Yaml)) (h : Says n ls ms) :
      Says n ((spaces k ++ go!"#" ++ c) :: ls) ms
  | value (n : Nat) (key text : Bytes) (v : Yaml) (ls : List Bytes) (ms : List (Bytes × Yaml)) (hk : KeyName key) (hv : ValueText text v)
      (h : Says n ls ms) : Says n ((spaces n ++ key ++ go!": " ++ text) :: ls) ((key, v) :: ms)
  | nothing (n : Nat) (key : Bytes) (ls : List Bytes) (ms : List (Bytes × Yaml)) (hk : KeyName key) (h : Says n ls ms) :
      Says n ((spaces n ++ key ++ go!":") :: ls) ((key, .null) :: ms)
  | block (n m : Nat) (key : Bytes) (sub ls : List Bytes) (kids ms : List (Bytes × Yaml)) (hk : KeyName key) (hm : n < m) (h0 : kids ≠ [])
      (hs : Says m sub kids) (h : Says n ls ms) : Says n ((spaces n ++ key ++ go!":") :: (sub ++ ls)) ((key, .map kids) :: ms)

/-- A reader of YAML that is right about these texts. -/
def ReadsYaml (read : Bytes → Option Yaml) : Prop :=
  ∀ text lines ms, HasLines text lines → (∀ l ∈ lines, Printable l) → Says 0 lines ms → ms ≠ [] → read text = some (.map ms)

end Egts
