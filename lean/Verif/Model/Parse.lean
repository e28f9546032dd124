import Verif.Model.Cli
import Verif.Model.Marshal

/-!
# The texts on the command line of packet-gen: floating-point numbers and times

`strconv.ParseFloat(s, 64)`, which `flag.Float64Var` uses (`packet-gen/main.go:59-60`), and `time.Parse(time.RFC3339, s)`
(`packet-gen/main.go:80`), of Go 1.18.
-/

namespace Egts

/-- `isDigit`. -/
def decDigit (c : UInt8) : Bool := 48 ≤ c && c ≤ 57

/-! ## `strconv.ParseFloat` -/

/-- A number with its sign. -/
def signed (neg : Bool) : Option Nat → Option Int
  | none => none
  | some n => some (if neg then -(n : Int) else n)

/-- The loop over the digits in `readFloat`, base 10, texts without underscores: the digits as one number, how many of them follow the
point, whether there were any, and the text that remains. Simplification: all digits are kept, where the library keeps 19 of them and
whether there were more; it consults the others when they matter. -/
def mantLoop (dot any : Bool) (m frac : Nat) : Bytes → Nat × Nat × Bool × Bytes
  | [] => (m, frac, any, [])
  | c :: r =>
    if c = 46 then
      if dot then (m, frac, any, c :: r) else mantLoop true any m frac r
    else if decDigit c then mantLoop dot true (m * 10 + (c - 48).toNat) (if dot then frac + 1 else frac) r
    else (m, frac, any, c :: r)

/-- The loop over the digits of the exponent in `readFloat`, which stops counting at 10000; what remains must be empty. -/
def expLoop (e : Nat) : Bytes → Option Nat
  | [] => some e
  | c :: r => if decDigit c then expLoop (if e < 10000 then e * 10 + (c - 48).toNat else e) r else none

/-- The digits of the exponent: at least one. -/
def expDigits : Bytes → Option Nat
  | [] => none
  | s => expLoop 0 s

/-- The optional exponent of `readFloat`, and that nothing follows (`ParseFloat`). -/
def readExp : Bytes → Option Int
  | [] => some 0
  | c :: r =>
    if lowerByte c = 101 then
      match r with
      | 43 :: r => signed false (expDigits r)
      | 45 :: r => signed true (expDigits r)
      | r => signed false (expDigits r)
    else none

/-- `readFloat` after the sign: the exact value. -/
def readUnsigned (s : Bytes) : Option Rat :=
  let (m, frac, any, rest) := mantLoop false false 0 0 s
  if any then (readExp rest).map fun e => (m : Rat) * (10 : Rat) ^ (e - (frac : Int)) else none

/-- `readFloat`: the exact value of a decimal text. -/
def readFloat (s : Bytes) : Option Rat :=
  match s with
  | 43 :: r => readUnsigned r
  | 45 :: r => (readUnsigned r).map fun q => -q
  | s => readUnsigned s

/-- The nearest `float64`, ties to even; `none` if that is an infinity (`ErrRange`). The library is documented to find it for every
text; how it does is not modelled. -/
def nearest64 (q : Rat) : Option F64 :=
  let a := if 0 ≤ q then q else -q
  if pow2 1024 - pow2 970 ≤ a then none
  else if a < pow2 (-1022) then some ((roundEven (q / pow2 (-1074)) : Rat) * pow2 (-1074))
  else some (rnd q)

/-- The characters of decimal numbers: digits, `+`, `-`, `.`, `e` and `E`. -/
def floatChar (c : UInt8) : Bool := decDigit c || c = 43 || c = 45 || c = 46 || c = 101 || c = 69

/-- `strconv.ParseFloat(s, 64)`. `other` is what it makes of texts with other characters: hexadecimal numbers, underscores, `inf`, `nan`. -/
def parseFloat (other : Bytes → Option F64) (s : Bytes) : Option F64 :=
  if s.all floatChar then (readFloat s).bind nearest64 else other s

/-! ## `time.Parse(time.RFC3339, s)` -/

/-- `getnum`: two digits, or one if that need not be `fixed`. -/
def getnum (fixed : Bool) : Bytes → Option (Nat × Bytes)
  | c :: d :: r =>
    if ¬ decDigit c then none
    else if decDigit d then some ((c - 48).toNat * 10 + (d - 48).toNat, r)
    else if fixed then none
    else some ((c - 48).toNat, d :: r)
  | [c] => if decDigit c ∧ ¬ fixed then some ((c - 48).toNat, []) else none
  | [] => none

/-- `skip` of one character that is not a blank. -/
def skipChar (p : UInt8) : Bytes → Option Bytes
  | c :: r => if c = p then some r else none
  | [] => none

/-- The digits of `leadingInt`; there must be nothing else. -/
def allDigits (n : Nat) : Bytes → Option Nat
  | [] => some n
  | c :: r => if decDigit c then allDigits (n * 10 + (c - 48).toNat) r else none

/-- `atoi` of package `time`. -/
def timeAtoi : Bytes → Option Int
  | 45 :: r => signed true (allDigits 0 r)
  | 43 :: r => signed false (allDigits 0 r)
  | s => signed false (allDigits 0 s)

/-- `stdLongYear`: four characters, the first of them a digit. -/
def longYear : Bytes → Option (Int × Bytes)
  | a :: b :: c :: d :: r => if decDigit a then (timeAtoi [a, b, c, d]).map fun y => (y, r) else none
  | _ => none

/-- `parseNanoseconds` of digits: nine of them count. -/
def nanoseconds (ds : Bytes) : Option Nat := (allDigits 0 (ds.take 9)).map fun n => n * 10 ^ (9 - (ds.take 9).length)

/-- After the seconds: a fraction that the layout does not ask for, behind a point or a comma. -/
def fracSeconds : Bytes → Option (Nat × Bytes)
  | p :: d :: r =>
    if (p = 46 ∨ p = 44) ∧ decDigit d then
      (nanoseconds (d :: r.takeWhile decDigit)).map fun n => (n, r.dropWhile decDigit)
    else some (0, p :: d :: r)
  | s => some (0, s)

/-- `stdISO8601ColonTZ`: `Z`, or a sign, two characters, a colon and two characters; the offset in seconds. -/
def zoneOffset : Bytes → Option (Int × Bytes)
  | 90 :: r => some (0, r)
  | sign :: h1 :: h2 :: c :: m1 :: m2 :: r =>
    if c ≠ 58 then none
    else
      match timeAtoi [h1, h2], timeAtoi [m1, m2] with
      | some hr, some mm =>
        if sign = 43 then some ((hr * 60 + mm) * 60, r) else if sign = 45 then some (-((hr * 60 + mm) * 60), r) else none
      | _, _ => none
  | _ => none

/-- `daysIn`. -/
def daysIn (m : Nat) (y : Int) : Nat := if m = 2 ∧ isLeapYear y then 29 else daysBefore m - daysBefore (m - 1)

/-- The days of `time.Date`, from 1 January of year 1. Simplification: not from the beginning of the cycle of 400 years that the library
starts from. -/
def dateDays (y : Int) (m d : Nat) : Int :=
  let y1 := y - 1
  let n400 := y1 / 400
  let y1 := y1 % 400
  let n100 := y1 / 100
  let y1 := y1 % 100
  let n4 := y1 / 4
  146097 * n400 + 36524 * n100 + 1461 * n4 + 365 * (y1 % 4) + daysBefore (m - 1) + (if isLeapYear y ∧ 3 ≤ m then 1 else 0) + ((d : Int) - 1)

/-- The checks of the ranges in `time.Parse`, and `time.Date`. -/
def checkedTime (y : Int) (mo d h mi sec ns : Nat) (off : Int) : Option GoTime :=
  if mo < 1 ∨ 12 < mo ∨ 24 ≤ h ∨ 60 ≤ mi ∨ 60 ≤ sec ∨ d < 1 ∨ daysIn mo y < d then none
  else some (((((dateDays y mo d - 719162) * 24 + h) * 60 + mi) * 60 + sec - off) * 1000000000 + ns)

/-- `time.Parse(time.RFC3339, s)`, without the location of the result. The loop over the layout `2006-01-02T15:04:05Z07:00` is
written out. -/
def parseTime (s : Bytes) : Option GoTime := do
  let (y, s) ← longYear s
  let s ← skipChar 45 s
  let (mo, s) ← getnum true s
  let s ← skipChar 45 s
  let (d, s) ← getnum true s
  let s ← skipChar 84 s
  let (h, s) ← getnum false s
  let s ← skipChar 58 s
  let (mi, s) ← getnum true s
  let s ← skipChar 58 s
  let (sec, s) ← getnum true s
  let (ns, s) ← fracSeconds s
  let (off, s) ← zoneOffset s
  if s ≠ [] then none else checkedTime y mo d h mi sec ns off

end Egts
