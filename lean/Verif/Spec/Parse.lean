import Verif.Model.Parse
import Verif.Spec.Cli
import Verif.Spec.PkgJson

/-! # Specification vocabulary: decimal numbers and RFC 3339 -/

namespace Egts

/-- A text of decimal digits, possibly empty. -/
def Digits (ds : Bytes) : Prop := ∀ c ∈ ds, 48 ≤ c ∧ c ≤ 57

/-- The number that decimal digits are. -/
def natOf (ds : Bytes) : Nat := ds.foldl (fun n c => n * 10 + (c.toNat - 48)) 0

/-- An optional sign. -/
def SignText (s : Bytes) (σ : Int) : Prop := (s = [] ∨ s = go!"+") ∧ σ = 1 ∨ s = go!"-" ∧ σ = -1

/-- An optional exponent. -/
def ExpText (s : Bytes) (e : Int) : Prop :=
  s = [] ∧ e = 0 ∨
  ∃ sign σ ds, (s = go!"e" ++ sign ++ ds ∨ s = go!"E" ++ sign ++ ds) ∧ SignText sign σ ∧ ds ≠ [] ∧ Digits ds ∧ e = σ * natOf ds

/-- The text is the number `q` in decimal notation, with exponent `e`: `-12.5`, `.5`, `7`, `1.2e-3`. -/
def DecimalNumber (s : Bytes) (q : Rat) (e : Int) : Prop :=
  ∃ sign σ whole frac ex, SignText sign σ ∧ Digits whole ∧ Digits frac ∧ (whole ≠ [] ∨ frac ≠ []) ∧ ExpText ex e ∧
    (s = sign ++ whole ++ ex ∧ frac = [] ∨ s = sign ++ whole ++ go!"." ++ frac ++ ex) ∧
    q = σ * natOf (whole ++ frac) * (10 : Rat) ^ (e - frac.length)

/-- The numbers of type `float64` (IEEE 754), without infinities. -/
def IsFloat64 (x : Rat) : Prop := ∃ n k : Int, |n| < 2 ^ 53 ∧ -1074 ≤ k ∧ k ≤ 971 ∧ x = n * (2 : Rat) ^ k

/-- Neighbouring multiples of a power of two, of which the first is an even multiple: what `ties to even` chooses between `x` and `y`. -/
def EvenNeighbour (x y : Rat) : Prop := ∃ n m k : Int, Even n ∧ |n - m| = 1 ∧ x = n * (2 : Rat) ^ k ∧ y = m * (2 : Rat) ^ k

/-! ## RFC 3339 -/

/-- `w` digits. -/
def Numeral (w : Nat) (ds : Bytes) (n : Nat) : Prop := ds.length = w ∧ Digits ds ∧ n = natOf ds

/-- An optional fraction of a second, in nanoseconds; digits beyond the ninth are cut off. -/
def FractionText (s : Bytes) (ns : Nat) : Prop :=
  s = [] ∧ ns = 0 ∨ ∃ ds, s = go!"." ++ ds ∧ ds ≠ [] ∧ Digits ds ∧ ns = natOf ds * 10 ^ 9 / 10 ^ ds.length

/-- The offset from UTC, in minutes. -/
def OffsetText (s : Bytes) (off : Int) : Prop :=
  s = go!"Z" ∧ off = 0 ∨
  ∃ H h M m, Numeral 2 H h ∧ Numeral 2 M m ∧ h ≤ 23 ∧ m ≤ 59 ∧
    (s = go!"+" ++ H ++ go!":" ++ M ∧ off = h * 60 + m ∨ s = go!"-" ++ H ++ go!":" ++ M ∧ off = -(h * 60 + m))

/-- The date of the Gregorian calendar exists. -/
def DateExists (y mo d : Nat) : Prop := 1 ≤ mo ∧ mo ≤ 12 ∧ 1 ≤ d ∧ d ≤ (Json.monthLengths y).getD (mo - 1) 0

/-- The nanoseconds from the beginning of 1970 to a date and a time of day in UTC. -/
def instant (y mo d h mi s ns : Nat) : Int :=
  ((((Json.dayNumber y mo d - Json.dayNumber 1970 1 1) * 24 + h) * 60 + mi) * 60 + s) * 1000000000 + ns

/-- A `date-time` of RFC 3339, and the time it stands for. Not in it: leap seconds, and `t` and `z` instead of `T` and `Z`. -/
def Rfc3339 (s : Bytes) (t : GoTime) : Prop :=
  ∃ (Y MO D H MI S F Z : Bytes) (y mo d h mi sec ns : Nat) (off : Int),
    s = Y ++ go!"-" ++ MO ++ go!"-" ++ D ++ go!"T" ++ H ++ go!":" ++ MI ++ go!":" ++ S ++ F ++ Z ∧
    Numeral 4 Y y ∧ Numeral 2 MO mo ∧ Numeral 2 D d ∧ DateExists y mo d ∧
    Numeral 2 H h ∧ h ≤ 23 ∧ Numeral 2 MI mi ∧ mi ≤ 59 ∧ Numeral 2 S sec ∧ sec ≤ 59 ∧ FractionText F ns ∧ OffsetText Z off ∧
    t = instant y mo d h mi sec ns - off * 60 * 1000000000

/-! ## What `--time` accepts, which is more than RFC 3339 -/

/-- An hour: of two digits, or of one. -/
def HourAccepted (s : Bytes) (h : Nat) : Prop := Numeral 2 s h ∨ Numeral 1 s h

/-- A fraction of a second: behind a point, or behind a comma. -/
def FractionAccepted (s : Bytes) (ns : Nat) : Prop :=
  s = [] ∧ ns = 0 ∨
  ∃ p ds, (p = go!"." ∨ p = go!",") ∧ s = p ++ ds ∧ ds ≠ [] ∧ Digits ds ∧ ns = natOf ds * 10 ^ 9 / 10 ^ ds.length

/-- The hours or the minutes of an offset: two digits, or a sign and a digit. -/
def TwoAccepted (s : Bytes) (v : Int) : Prop :=
  (∃ n, Numeral 2 s n ∧ v = n) ∨ ∃ sign σ d n, sign ≠ [] ∧ SignText sign σ ∧ Numeral 1 d n ∧ s = sign ++ d ∧ v = σ * n

/-- The offset from UTC, in minutes: the numbers are not checked. -/
def OffsetAccepted (s : Bytes) (off : Int) : Prop :=
  s = go!"Z" ∧ off = 0 ∨
  ∃ sign σ H h M m, sign ≠ [] ∧ SignText sign σ ∧ TwoAccepted H h ∧ TwoAccepted M m ∧ s = sign ++ H ++ go!":" ++ M ∧ off = σ * (h * 60 + m)

/-- The texts that are accepted as times. -/
def TimeAccepted (s : Bytes) (t : GoTime) : Prop :=
  ∃ (Y MO D H MI S F Z : Bytes) (y mo d h mi sec ns : Nat) (off : Int),
    s = Y ++ go!"-" ++ MO ++ go!"-" ++ D ++ go!"T" ++ H ++ go!":" ++ MI ++ go!":" ++ S ++ F ++ Z ∧
    Numeral 4 Y y ∧ Numeral 2 MO mo ∧ Numeral 2 D d ∧ DateExists y mo d ∧
    HourAccepted H h ∧ h ≤ 23 ∧ Numeral 2 MI mi ∧ mi ≤ 59 ∧ Numeral 2 S sec ∧ sec ≤ 59 ∧ FractionAccepted F ns ∧ OffsetAccepted Z off ∧
    t = instant y mo d h mi sec ns - off * 60 * 1000000000

end Egts
