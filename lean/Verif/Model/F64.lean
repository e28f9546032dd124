import Verif.Model.Go

/-!
# `float64`

A finite double is represented by the rational number it denotes. Every arithmetic operation of
the Go code is the exact rational operation followed by `rnd`, IEEE-754 round-to-nearest,
ties-to-even, with a 53-bit significand. Simplification: the exponent range is unbounded
(no overflow to infinity, no subnormals), and NaN, infinities and the sign of zero are left out.
-/

namespace Egts

/-- A finite double, as the rational it denotes. -/
abbrev F64 := Rat

/-- `2^e` for an integer exponent. -/
def pow2 (e : Int) : Rat :=
  match e with
  | .ofNat n => ((2 ^ n : Nat) : Rat)
  | .negSucc n => 1 / ((2 ^ (n + 1) : Nat) : Rat)

/-- `⌊log2 a⌋` for a positive rational. -/
def ilog2 (a : Rat) : Int :=
  let k : Int := (Nat.log2 a.num.natAbs : Int) - (Nat.log2 a.den : Int)
  if pow2 k ≤ a then k else k - 1

/-- Round to the nearest integer, ties to even. -/
def roundEven (q : Rat) : Int :=
  let f := q.floor
  let r := q - (f : Rat)
  if r < 1 / 2 then f
  else if 1 / 2 < r then f + 1
  else if f % 2 = 0 then f
  else f + 1

/-- Round a rational to the nearest double (53-bit significand, ties to even). -/
def rnd (x : Rat) : F64 :=
  if x = 0 then 0
  else
    let a := if 0 ≤ x then x else -x
    let ulp := pow2 (ilog2 a - 52)
    (roundEven (x / ulp) : Rat) * ulp

/-- Parts of the environment whose behaviour is not fixed by the source text. All theorems
quantify over it. -/
structure Env where
  /-- `uint32(f)` when the truncated value of `f` does not fit: implementation-specific in Go. -/
  f2u : Rat → UInt32

/-- `uint32(f)`: truncation toward zero when the result fits. -/
def Env.toU32 (env : Env) (f : F64) : UInt32 :=
  if 0 ≤ f ∧ f < 4294967296 then UInt32.ofNat f.floor.toNat
  else env.f2u f

/-- `float64(preFieldVal) * 90 / 0xFFFFFFFF` (`egts_sr_pos_data.go:60`). -/
def decLat (v : UInt32) : F64 := rnd (rnd ((v.toNat : Rat) * 90) / 4294967295)

/-- `float64(preFieldVal) * 180 / 0xFFFFFFFF` (`egts_sr_pos_data.go:67`). -/
def decLon (v : UInt32) : F64 := rnd (rnd ((v.toNat : Rat) * 180) / 4294967295)

/-- `uint32(e.Latitude/90*0xFFFFFFFF)` (`egts_sr_pos_data.go:148`). -/
def encLat (env : Env) (x : F64) : UInt32 := env.toU32 (rnd (rnd (x / 90) * 4294967295))

/-- `uint32(e.Longitude/180*0xFFFFFFFF)` (`egts_sr_pos_data.go:153`). -/
def encLon (env : Env) (x : F64) : UInt32 := env.toU32 (rnd (rnd (x / 180) * 4294967295))

/-- `Duration.Seconds()`: `float64(d / 1e9) + float64(d % 1e9)/1e9` with Go's truncating
division. -/
def durSeconds (d : Int) : F64 :=
  rnd (rnd ((Int.tdiv d 1000000000 : Int) : Rat) + rnd (((Int.tmod d 1000000000 : Int) : Rat) / 1000000000))

/-- `uint32(e.NavigationTime.Sub(startDate).Seconds())` (`egts_sr_pos_data.go:143`). -/
def encNavTime (env : Env) (t : GoTime) : UInt32 := env.toU32 (durSeconds (GoTime.sub t timeOffset))

/-- `startDate.Add(time.Duration(preFieldVal) * time.Second)` (`egts_sr_pos_data.go:52`,
`service_data_records.go:93`); the product stays below 2^63. -/
def decTime (v : UInt32) : GoTime := timeOffset + (v.toNat : Int) * 1000000000

end Egts
