import Verif.Model.Go

/-! # UTF-8 (RFC 3629) -/

namespace Egts
namespace Utf8

/-- A character number: up to 10FFFF, without the surrogates (RFC 3629, section 3). -/
def Scalar (n : Nat) : Prop := n < 0xD800 ∨ (0xE000 ≤ n ∧ n < 0x110000)

instance (n : Nat) : Decidable (Scalar n) := inferInstanceAs (Decidable (_ ∨ _))

/-- The octets of a character (the table of RFC 3629, section 3). -/
def enc (n : Nat) : Bytes :=
  if n < 0x80 then [UInt8.ofNat n]
  else if n < 0x800 then [UInt8.ofNat (0xC0 + n / 64), UInt8.ofNat (0x80 + n % 64)]
  else if n < 0x10000 then [UInt8.ofNat (0xE0 + n / 4096), UInt8.ofNat (0x80 + n / 64 % 64), UInt8.ofNat (0x80 + n % 64)]
  else [UInt8.ofNat (0xF0 + n / 262144), UInt8.ofNat (0x80 + n / 4096 % 64), UInt8.ofNat (0x80 + n / 64 % 64), UInt8.ofNat (0x80 + n % 64)]

/-- Well-formed UTF-8: a sequence of encoded characters. -/
def WellFormed (s : Bytes) : Prop := ∃ ns : List Nat, (∀ n ∈ ns, Scalar n) ∧ s = ns.flatMap enc

/-- `Repaired s t`: `t` is `s` with every byte that begins no encoded character replaced by U+FFFD, the replacement character. -/
inductive Repaired : Bytes → Bytes → Prop
  | nil : Repaired [] []
  | char {n s t} : Scalar n → Repaired s t → Repaired (enc n ++ s) (enc n ++ t)
  | bad {c s t} : (∀ n, Scalar n → ¬ enc n <+: c :: s) → Repaired s t → Repaired (c :: s) (enc 0xFFFD ++ t)

end Utf8
end Egts
