import Verif.Model.Go
import Mathlib.Algebra.Polynomial.Div
import Mathlib.Data.ZMod.Basic

/-!
# Specification of the checksums

Polynomials over the two-element field; a bit string stands for the polynomial whose coefficients it
lists, highest first.
-/

namespace Egts.Crc

open Polynomial

/-- Polynomials over GF(2). -/
abbrev Poly := Polynomial (ZMod 2)

/-- The polynomial of a bit string, first bit highest. -/
noncomputable def poly : List Bool → Poly
  | [] => 0
  | b :: l => (if b then X ^ l.length else 0) + poly l

/-- The `w` low bits of a number, highest first. -/
def bitsOf (w n : Nat) : List Bool := (List.range w).reverse.map n.testBit

/-- The bits of a byte string in the order of transmission: first byte first, in each byte the highest
bit first. -/
def bits (b : Bytes) : List Bool := b.flatMap fun x => bitsOf 8 x.toNat

/-- x¹⁶ + x¹² + x⁵ + 1 -/
noncomputable def g16 : Poly := X ^ 16 + X ^ 12 + X ^ 5 + 1

/-- x⁸ + x⁵ + x⁴ + 1 -/
noncomputable def g8 : Poly := X ^ 8 + X ^ 5 + X ^ 4 + 1

/-- Flip the first `n` bits of a bit string. -/
def flip (n : Nat) (l : List Bool) : List Bool := (l.take n).map (! ·) ++ l.drop n

/-- How many bits differ. -/
def dist (a b : Bytes) : Nat := ((bits a).zip (bits b)).countP fun p => p.1 != p.2

/-- `b` is `a` with some bits altered, all within `w` consecutive ones. -/
def Burst (w : Nat) (a b : Bytes) : Prop :=
  a ≠ b ∧ a.length = b.length ∧ ∃ k, (bits a).take k = (bits b).take k ∧ (bits a).drop (k + w) = (bits b).drop (k + w)

end Egts.Crc
