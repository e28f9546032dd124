import Verif.Model.Parse
import Verif.Model.Sub

/-!
# All values of `float64`

`Model/F64.lean` has the finite numbers only, with an unbounded range. Here are all values of IEEE 754: infinities, what is not a number,
the zero with a minus sign, and the bounds of the range; and the calculations with coordinates of `egts_sr_pos_data.go` in it. That they are
those of `Model/F64.lean` is C112. (All of what is not a number is one value: the code never looks at its bits.)
-/

namespace Egts

/-- A value of type `float64`. -/
inductive Double where
  /-- a finite number; the zero without sign -/
  | num (q : Rat)
  | negZero
  | inf (neg : Bool)
  | nan
  deriving DecidableEq, Repr

/-- The sign bit. -/
def Double.sign : Double → Bool
  | .num q => decide (q < 0)
  | .negZero => true
  | .inf s => s
  | .nan => false

/-- The value of a finite number. -/
def Double.val : Double → Rat
  | .num q => q
  | _ => 0

def Double.isZero : Double → Bool
  | .num q => decide (q = 0)
  | .negZero => true
  | _ => false

/-- The zero with the given sign. -/
def Double.zero (s : Bool) : Double := if s then .negZero else .num 0

/-- Rounding of an exact result with the given sign: to nearest, ties to even; to infinity from 2^1024 - 2^970 on; towards zero in steps of
2^(-1074) (`nearest64`). -/
def Double.round (s : Bool) (q : Rat) : Double :=
  match nearest64 q with
  | none => .inf s
  | some x => if x = 0 then .zero s else .num x

/-- `x * y`. -/
def Double.mul (x y : Double) : Double :=
  match x, y with
  | .nan, _ => .nan
  | _, .nan => .nan
  | .inf a, y => if y.isZero then .nan else .inf (a ^^ y.sign)
  | x, .inf b => if x.isZero then .nan else .inf (x.sign ^^ b)
  | x, y => .round (x.sign ^^ y.sign) (x.val * y.val)

/-- `x / y`. -/
def Double.div (x y : Double) : Double :=
  match x, y with
  | .nan, _ => .nan
  | _, .nan => .nan
  | .inf _, .inf _ => .nan
  | .inf a, y => .inf (a ^^ y.sign)
  | x, .inf b => .zero (x.sign ^^ b)
  | x, y => if y.isZero then (if x.isZero then .nan else .inf (x.sign ^^ y.sign)) else .round (x.sign ^^ y.sign) (x.val / y.val)

/-- `uint32(f)`: the fraction is discarded; if the result does not fit, it is what the implementation makes of it, here `cv`. -/
def Double.toU32 (cv : Double → UInt32) : Double → UInt32
  | .num q => if -1 < q ∧ q < 4294967296 then UInt32.ofNat q.floor.toNat else cv (.num q)
  | .negZero => 0
  | x => cv x

/-- `uint32(e.Latitude/90*0xFFFFFFFF)` (`egts_sr_pos_data.go:148`). -/
def encLat64 (cv : Double → UInt32) (x : Double) : UInt32 := ((x.div (.num 90)).mul (.num 4294967295)).toU32 cv

/-- `uint32(e.Longitude/180*0xFFFFFFFF)` (`egts_sr_pos_data.go:153`). -/
def encLon64 (cv : Double → UInt32) (x : Double) : UInt32 := ((x.div (.num 180)).mul (.num 4294967295)).toU32 cv

/-- `float64(preFieldVal) * 90 / 0xFFFFFFFF` (`egts_sr_pos_data.go:60`). -/
def decLat64 (v : UInt32) : Double := ((Double.num v.toNat).mul (.num 90)).div (.num 4294967295)

/-- `float64(preFieldVal) * 180 / 0xFFFFFFFF` (`egts_sr_pos_data.go:67`). -/
def decLon64 (v : UInt32) : Double := ((Double.num v.toNat).mul (.num 180)).div (.num 4294967295)

/-- The environment of a machine that converts in this way. -/
def Env.ofDouble (cv : Double → UInt32) : Env where
  f2u q :=
    if -1 < q ∧ q < 0 then 0
    else if pow2 1024 - pow2 970 ≤ (if 0 ≤ q then q else -q) then cv (.inf (decide (q < 0)))
    else cv (.num q)

/-- `SrPosData.Encode` (`egts_sr_pos_data.go:133-206`) of a position with these coordinates, and all other fields as in `e`. -/
def SrPosData.encode64 (cv : Double → UInt32) (e : SrPosData) (lat lon : Double) : Except Err Bytes := do
  let flags ← parseFlags (e.alte ++ e.lohs ++ e.lahs ++ e.mv ++ e.bb ++ e.cs ++ e.fix ++ e.vld)
  pure (put32 (encNavTime (.ofDouble cv) e.navigationTime)
    ++ put32 (encLat64 cv lat)
    ++ put32 (encLon64 cv lon)
    ++ [flags]
    ++ put16 (posSpeedWord e.speed e.directionHighestBit e.altitudeSign)
    ++ [posDirByte e.direction e.directionHighestBit]
    ++ put24 e.odometer
    ++ [e.digitalInputs, e.source]
    ++ optBytes e.alte (put24 e.altitude))

/-! ## `strconv.ParseFloat` for what is not a decimal number -/

/-- Small letters for capital ones, of ASCII. -/
def asciiLower (c : UInt8) : UInt8 := if 65 ≤ c ∧ c ≤ 90 then c + 32 else c

/-- `commonPrefixLenIgnoreCase`. -/
def commonPrefixLen : Bytes → Bytes → Nat
  | c :: s, p :: ps => if asciiLower c = p then commonPrefixLen s ps + 1 else 0
  | _, _ => 0

/-- The end of `special` for infinities, after `nsign` bytes of a sign. -/
def specialInf (neg : Bool) (nsign : Nat) (s : Bytes) : Option (Double × Nat) :=
  let n := commonPrefixLen s (go!"infinity")
  let n := if 3 < n ∧ n < 8 then 3 else n
  if n = 3 ∨ n = 8 then some (.inf neg, nsign + n) else none

/-- `special`: the value and the number of bytes that make it. -/
def special : Bytes → Option (Double × Nat)
  | [] => none
  | c :: r =>
    if c = 43 then specialInf false 1 r
    else if c = 45 then specialInf true 1 r
    else if c = 105 ∨ c = 73 then specialInf false 0 (c :: r)
    else if c = 110 ∨ c = 78 then (if commonPrefixLen (c :: r) (go!"nan") = 3 then some (.nan, 3) else none)
    else none

/-- `strconv.ParseFloat(s, 64)`. `other` is what it makes of hexadecimal numbers and of texts with underscores. -/
def parseDouble (other : Bytes → Option F64) (s : Bytes) : Option Double :=
  match special s with
  | some (x, n) => if n = s.length then some x else none
  | none => (parseFloat other s).map fun x => if x = 0 then .zero (s.head? = some 45) else .num x

end Egts
