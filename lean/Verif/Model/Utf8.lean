import Verif.Model.Go

/-! # `unicode/utf8` -/

namespace Egts

/-- The least second byte after the first byte `a` (`acceptRanges` of `unicode/utf8`). -/
def acceptLo (a : Nat) : Nat := if a = 0xE0 then 0xA0 else if a = 0xF0 then 0x90 else 0x80

/-- The greatest second byte after the first byte `a` (`acceptRanges` of `unicode/utf8`). -/
def acceptHi (a : Nat) : Nat := if a = 0xED then 0x9F else if a = 0xF4 then 0x8F else 0xBF

/-- `utf8.DecodeRuneInString` of a string: the character at its start and the number of its bytes. `none` stands for
`(RuneError, 1)` and, of the empty string, `(RuneError, 0)`. -/
def runeAt (s : Bytes) : Option (Nat × Nat) :=
  match s with
  | [] => none
  | a :: r =>
    let a := a.toNat
    if a < 0x80 then some (a, 1)
    else if a < 0xC2 then none
    else if a < 0xE0 then
      match r with
      | b :: _ =>
        let b := b.toNat
        if b < 0x80 ∨ 0xBF < b then none else some (a % 32 * 64 + b % 64, 2)
      | _ => none
    else if a < 0xF0 then
      match r with
      | b :: c :: _ =>
        let b := b.toNat
        let c := c.toNat
        if b < acceptLo a ∨ acceptHi a < b ∨ c < 0x80 ∨ 0xBF < c then none
        else some (a % 16 * 4096 + b % 64 * 64 + c % 64, 3)
      | _ => none
    else if a < 0xF5 then
      match r with
      | b :: c :: d :: _ =>
        let b := b.toNat
        let c := c.toNat
        let d := d.toNat
        if b < acceptLo a ∨ acceptHi a < b ∨ c < 0x80 ∨ 0xBF < c ∨ d < 0x80 ∨ 0xBF < d then none
        else some (a % 8 * 262144 + b % 64 * 4096 + c % 64 * 64 + d % 64, 4)
      | _ => none
    else none

end Egts
