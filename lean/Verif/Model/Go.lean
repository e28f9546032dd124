/-!
# Go primitives

Meaning given to the parts of the Go language and standard library used by `/repo`.
These definitions are part of the trusted base (see DESIGN.md).
-/

namespace Egts

/-- `[]byte` and `string`: the bytes visible through the slice or string. -/
abbrev Bytes := List UInt8

/-- Go string literals: `go!"10"` is the list of the bytes of the ASCII text `10`. -/
macro "go!" s:str : term => do
  let elems ← s.getString.toUTF8.toList.mapM fun b =>
    `(($(Lean.Syntax.mkNumLit (toString b.toNat)) : UInt8))
  `([ $(elems.toArray),* ])

/-- The non-nil `error` values that the code can return. Message texts are not modelled. -/
inductive Err
  /-- `io.EOF` from a reader -/
  | eof
  /-- `strconv.ErrSyntax` -/
  | syntax
  /-- `strconv.ErrRange` -/
  | range
  /-- "Некорректный размер данных" (`egts_sr_abs_an_sensors_data.go`) -/
  | badSize
  /-- "Не реализованная секция EGTS_SR_ACCEL_DATA" (`record_data.go`) -/
  | accel
  /-- "не известен код для данного типа подзаписи" (`record_data.go`) -/
  | unknownKind
  /-- header or body checksum mismatch (`egts_pkg.go`) -/
  | checksum
  /-- "Неизвестный тип пакета" (`egts_pkg.go`) -/
  | packetType
  /-- `errSecretKey` (`egts_pkg.go:13`) -/
  | noKey
  /-- an error returned by the user's `SecretKey` -/
  | key
  /-- an error returned by the protobuf library -/
  | proto
  /-- model artifact: nesting bound of `SrResponse.Decode` exhausted; proved never to be
  returned by any decoder (`Verif/Props/Records.lean`) -/
  | nesting
  deriving DecidableEq, Repr

/-- How an encoder can fail: by returning a non-nil error, or by a run-time panic
(nil interface dereference). -/
inductive Fault
  | err (e : Err)
  | panic
  deriving DecidableEq, Repr

deriving instance DecidableEq for Except

/-- A slice together with the bytes of its backing array between length and capacity.
Slice expressions `s[a:b]` may reach into `spare`. -/
structure Slice where
  data : Bytes
  spare : Bytes
  deriving DecidableEq, Repr

/-- `s[lo:hi]` of the Go specification: panics (`none`) unless `lo ≤ hi ≤ cap(s)`. -/
def Slice.sub? (s : Slice) (lo hi : Nat) : Option Bytes :=
  if lo ≤ hi ∧ hi ≤ s.data.length + s.spare.length then
    some (((s.data ++ s.spare).take hi).drop lo)
  else none

/-! ## `bytes.Reader` and `bytes.Buffer`: the state is the list of unread bytes -/

/-- `(*bytes.Reader).ReadByte` and `(*bytes.Buffer).ReadByte`. -/
def readByte : Bytes → Except Err (UInt8 × Bytes)
  | [] => .error .eof
  | b :: r => .ok (b, r)

/-- `(*bytes.Reader).Read(buf)`: at the end of input `(0, io.EOF)` (also for an empty `buf`);
otherwise copies `min (len buf) (unread)` bytes, without error, leaving the rest of `buf` as it was.
Result: new contents of `buf`, unread bytes. -/
def readerRead (buf r : Bytes) : Except Err (Bytes × Bytes) :=
  if r = [] then .error .eof
  else .ok (r.take buf.length ++ buf.drop r.length, r.drop buf.length)

/-- `(*bytes.Buffer).Read(buf)`: as `readerRead`, but reading into an empty `buf` at the
end of input is not an error. -/
def bufferRead (buf r : Bytes) : Except Err (Bytes × Bytes) :=
  if r = [] ∧ buf ≠ [] then .error .eof
  else .ok (r.take buf.length ++ buf.drop r.length, r.drop buf.length)

/-- `make([]byte, n)`. -/
def zeros (n : Nat) : Bytes := List.replicate n 0

/-- `(*bytes.Buffer).ReadString(0x00)` followed by `strings.TrimSuffix(_, "\x00")`: the bytes
before the first NUL and the bytes after it; EOF if there is no NUL. -/
def readCString : Bytes → Except Err (Bytes × Bytes)
  | [] => .error .eof
  | b :: r =>
    if b = 0 then .ok ([], r)
    else match readCString r with
      | .ok (s, r') => .ok (b :: s, r')
      | .error e => .error e

/-! ## `encoding/binary` -/

/-- `binary.LittleEndian.Uint16` of a slice of (at least) two bytes. -/
def le16 : Bytes → UInt16
  | a :: b :: _ => UInt16.ofNat (a.toNat + 256 * b.toNat)
  | _ => 0

/-- `binary.LittleEndian.Uint32` of a slice of (at least) four bytes. -/
def le32 : Bytes → UInt32
  | a :: b :: c :: d :: _ =>
    UInt32.ofNat (a.toNat + 256 * b.toNat + 65536 * c.toNat + 16777216 * d.toNat)
  | _ => 0

/-- `binary.Write(_, binary.LittleEndian, uint16)`. -/
def put16 (v : UInt16) : Bytes :=
  [UInt8.ofNat (v.toNat % 256), UInt8.ofNat (v.toNat / 256)]

/-- `binary.LittleEndian.PutUint32`, `binary.Write(_, binary.LittleEndian, uint32)`. -/
def put32 (v : UInt32) : Bytes :=
  [UInt8.ofNat (v.toNat % 256), UInt8.ofNat (v.toNat / 256 % 256),
   UInt8.ofNat (v.toNat / 65536 % 256), UInt8.ofNat (v.toNat / 16777216)]

/-- `binary.BigEndian.PutUint32`. -/
def putBE32 (v : UInt32) : Bytes := (put32 v).reverse

/-- the first three bytes of `PutUint32` (`buf[:3]` in the Go code). -/
def put24 (v : UInt32) : Bytes := (put32 v).take 3

/-! ## `fmt` and `strconv` -/

/-- The character `'0'` or `'1'` for bit `i` of `n`. -/
def bitChar (n i : Nat) : UInt8 := if n / 2 ^ i % 2 = 1 then 49 else 48

/-- `fmt.Sprintf("%08b", b)`: eight characters, most significant bit first. -/
def fmt8 (b : UInt8) : Bytes :=
  [bitChar b.toNat 7, bitChar b.toNat 6, bitChar b.toNat 5, bitChar b.toNat 4,
   bitChar b.toNat 3, bitChar b.toNat 2, bitChar b.toNat 1, bitChar b.toNat 0]

/-- `fmt.Sprintf("%016b", v)`. -/
def fmt16 (v : UInt16) : Bytes :=
  [bitChar v.toNat 15, bitChar v.toNat 14, bitChar v.toNat 13, bitChar v.toNat 12,
   bitChar v.toNat 11, bitChar v.toNat 10, bitChar v.toNat 9, bitChar v.toNat 8,
   bitChar v.toNat 7, bitChar v.toNat 6, bitChar v.toNat 5, bitChar v.toNat 4,
   bitChar v.toNat 3, bitChar v.toNat 2, bitChar v.toNat 1, bitChar v.toNat 0]

/-- `fmt.Sprintf("%03b", b)`: at least three characters, more if the value needs them. -/
def fmt3 (b : UInt8) : Bytes :=
  let n := b.toNat
  ([7, 6, 5, 4, 3].dropWhile (fun i => n / 2 ^ i % 2 ≠ 1) ++ [2, 1, 0]).map (bitChar n)

/-- `s[a:b]` of a string whose length is known to be at least `b`. -/
def substr (s : Bytes) (a b : Nat) : Bytes := (s.take b).drop a

/-- The loop of `strconv.ParseUint(s, 2, bits)` over the remaining characters:
value so far, and the error that stops it. `max` is `2^bits - 1`. -/
def parseLoop (max : Nat) : Nat → Bytes → Nat × Option Err
  | n, [] => (n, none)
  | n, c :: cs =>
    if c = 48 then
      (if 2 * n > max then (max, some .range) else parseLoop max (2 * n) cs)
    else if c = 49 then
      (if 2 * n + 1 > max then (max, some .range) else parseLoop max (2 * n + 1) cs)
    else (0, some .syntax)

/-- `strconv.ParseUint(s, 2, bits)`, returning both the value and the error, as Go does:
empty string or a character other than 0/1: `(0, ErrSyntax)`; too large: `(2^bits-1, ErrRange)`. -/
def parseUint2 (bits : Nat) (s : Bytes) : Nat × Option Err :=
  if s = [] then (0, some .syntax) else parseLoop (2 ^ bits - 1) 0 s

/-- `if flags, err = strconv.ParseUint(s, 2, 8); err != nil { return …, err }` -/
def parseFlags (s : Bytes) : Except Err UInt8 :=
  match parseUint2 8 s with
  | (v, none) => .ok (UInt8.ofNat v)
  | (_, some e) => .error e

/-! ## `time` -/

/-- `time.Time` as nanoseconds since 1970-01-01 UTC (location and monotonic part dropped). -/
abbrev GoTime := Int

/-- The zero `time.Time` (1 January of year 1). -/
def zeroTime : GoTime := -62135596800 * 1000000000

/-- `time.Time.Unix()`. -/
def GoTime.unix (t : GoTime) : Int := t / 1000000000

/-- `time.Date(2010, time.January, 1, 0, 0, 0, 0, time.UTC)` (`service_data_records.go:12`,
`egts_sr_pos_data.go:46,142`). -/
def timeOffset : GoTime := 1262304000 * 1000000000

/-- `time.Duration(n) * time.Second`, in nanoseconds: modulo 2^64, in the range of int64. -/
def seconds (n : Int) : Int := Int.bmod (n * 1000000000) 18446744073709551616

/-- `time.Time.Sub`: nanoseconds, saturating at the `int64` range. -/
def GoTime.sub (t u : GoTime) : Int :=
  max (-9223372036854775808) (min 9223372036854775807 (t - u))

end Egts
