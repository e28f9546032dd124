import Verif.Model.Cli

/-! # Specification vocabulary for command lines -/

namespace Egts

/-- What can be the name of an option: not empty, not beginning with `-`, without `=`. -/
def OptionName (name : Bytes) : Prop := name ≠ [] ∧ name.head? ≠ some 45 ∧ 61 ∉ name

/-- The four ways to give an option: `-name value`, `--name value`, `-name=value` and `--name=value`. -/
inductive Spelled (name value : Bytes) : List Bytes → Prop
  | one : Spelled name value [go!"-" ++ name, value]
  | two : Spelled name value [go!"--" ++ name, value]
  | oneEq : Spelled name value [go!"-" ++ name ++ go!"=" ++ value]
  | twoEq : Spelled name value [go!"--" ++ name ++ go!"=" ++ value]

/-- The command line gives these options, in this order. It ends at its end, at `--`, or at an argument that is not an option. -/
inductive CommandLine : List Bytes → List (Bytes × Bytes) → Prop
  | nil : CommandLine [] []
  | dashes (rest : List Bytes) : CommandLine (go!"--" :: rest) []
  | stop (a : Bytes) (rest : List Bytes) (h : a = go!"-" ∨ a.head? ≠ some 45) : CommandLine (a :: rest) []
  | option (name value : Bytes) (as rest : List Bytes) (opts : List (Bytes × Bytes)) (hn : OptionName name) (hs : Spelled name value as)
      (hr : CommandLine rest opts) : CommandLine (as ++ rest) ((name, value) :: opts)

/-- The command line asks for help, after options that are valid. -/
inductive AsksHelp (valid : Bytes → Bytes → Prop) : List Bytes → Prop
  | here (name : Bytes) (a : Bytes) (rest : List Bytes) (hn : name = go!"h" ∨ name = go!"help")
      (ha : a = go!"-" ++ name ∨ a = go!"--" ++ name ∨ ∃ v, a = go!"-" ++ name ++ go!"=" ++ v ∨ a = go!"--" ++ name ++ go!"=" ++ v) :
      AsksHelp valid (a :: rest)
  | option (name value : Bytes) (as rest : List Bytes) (hn : OptionName name) (hs : Spelled name value as) (hv : valid name value)
      (hr : AsksHelp valid rest) : AsksHelp valid (as ++ rest)

/-- The value of an option: the last one, if it is given more than once. -/
def lastValue (opts : List (Bytes × Bytes)) (name : Bytes) : Option Bytes := ((opts.filter (fun x => x.1 = name)).getLast?).map (·.2)

/-! ## Numbers -/

/-- The character is a digit of value `d` in this base. -/
def DigitOf (base : Nat) (c : UInt8) (d : Nat) : Prop :=
  d < base ∧ (d < 10 ∧ c.toNat = 48 + d ∨ 10 ≤ d ∧ (c.toNat = 87 + d ∨ c.toNat = 55 + d))

/-- Digits that carry on the number `n` to the number `m`; before each there may be one underscore. -/
inductive Grouped (base : Nat) : Nat → Bytes → Nat → Prop
  | nil (n : Nat) : Grouped base n [] n
  | digit (n : Nat) (c : UInt8) (d : Nat) (r : Bytes) (m : Nat) (hd : DigitOf base c d) (hr : Grouped base (n * base + d) r m) :
      Grouped base n (c :: r) m
  | sep (n : Nat) (c : UInt8) (d : Nat) (r : Bytes) (m : Nat) (hd : DigitOf base c d) (hr : Grouped base (n * base + d) r m) :
      Grouped base n (95 :: c :: r) m

/-- The number is written as in a Go program: decimal without a leading zero; octal with a leading `0`; or with `0b`, `0o` or `0x`. -/
def GoNat (s : Bytes) (n : Nat) : Prop :=
  (∃ c d r, s = c :: r ∧ DigitOf 10 c d ∧ d ≠ 0 ∧ Grouped 10 d r n) ∨
  (∃ r, s = go!"0" ++ r ∧ Grouped 8 0 r n) ∨
  (∃ r, r ≠ [] ∧ ((s = go!"0b" ++ r ∨ s = go!"0B" ++ r) ∧ Grouped 2 0 r n ∨ (s = go!"0o" ++ r ∨ s = go!"0O" ++ r) ∧ Grouped 8 0 r n ∨
    (s = go!"0x" ++ r ∨ s = go!"0X" ++ r) ∧ Grouped 16 0 r n))

/-- A number of type `int` with an optional sign. -/
def GoInt (s : Bytes) (n : Int) : Prop :=
  -2 ^ 63 ≤ n ∧ n < 2 ^ 63 ∧ ∃ m r, GoNat r m ∧ ((s = r ∨ s = go!"+" ++ r) ∧ n = m ∨ s = go!"-" ++ r ∧ n = -m)

/-- The text consists of decimal digits and is this number. -/
def Decimal (s : Bytes) (n : Nat) : Prop :=
  s ≠ [] ∧ (∀ c ∈ s, 48 ≤ c ∧ c ≤ 57) ∧ n = s.foldl (fun n c => n * 10 + (c.toNat - 48)) 0

/-- … without a zero in front. -/
def PlainDecimal (s : Bytes) (n : Nat) : Prop := Decimal s n ∧ (s.head? = some 48 → s = go!"0")

/-! ## packet-gen -/

/-- What is valid for packet-gen: eight options, four with an integer, two with a floating-point number, two with any text. -/
def GenValid (pf : Bytes → Option F64) (name value : Bytes) : Prop :=
  name ∈ [go!"pid", go!"oid", go!"liquid", go!"timeout"] ∧ (∃ n, GoInt value n) ∨
  name ∈ [go!"lat", go!"lon"] ∧ (pf value).isSome ∨
  name ∈ [go!"time", go!"server"]

/-- The number that the options give for a name, 0 if they do not. -/
def IntGiven (opts : List (Bytes × Bytes)) (name : Bytes) (n : Int) : Prop :=
  lastValue opts name = none ∧ n = 0 ∨ ∃ v, lastValue opts name = some v ∧ GoInt v n

def FloatGiven (pf : Bytes → Option F64) (opts : List (Bytes × Bytes)) (name : Bytes) (x : F64) : Prop :=
  lastValue opts name = none ∧ x = 0 ∨ ∃ v, lastValue opts name = some v ∧ pf v = some x

/-- The options ask for this. -/
structure GenAsks (pf : Bytes → Option F64) (opts : List (Bytes × Bytes)) (a : GenArgs) (server : Bytes) : Prop where
  pid : IntGiven opts (go!"pid") a.pid
  oid : IntGiven opts (go!"oid") a.oid
  liquid : IntGiven opts (go!"liquid") a.liqLvl
  timeout : IntGiven opts (go!"timeout") a.ackTimeout
  lat : FloatGiven pf opts (go!"lat") a.lat
  lon : FloatGiven pf opts (go!"lon") a.lon
  time : a.ts = (lastValue opts (go!"time")).getD []
  server : server = (lastValue opts (go!"server")).getD (go!"localhost:5555")

end Egts
