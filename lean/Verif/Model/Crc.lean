import Verif.Model.Go

/-! # Checksums (`libs/egts/crc.go`) -/

namespace Egts

/-- One iteration of the inner loop of `crc8` (`crc.go:9-13`). -/
def crc8Shift (crc : UInt8) : UInt8 :=
  if crc &&& 0x80 ≠ 0 then (crc <<< 1) ^^^ 0x31 else crc <<< 1

/-- The body of the outer loop of `crc8` (`crc.go:6-14`); the inner loop runs eight times. -/
def crc8Byte (crc b : UInt8) : UInt8 :=
  Nat.repeat crc8Shift 8 (crc ^^^ b)

/-- `crc8` (`crc.go:3-18`). -/
def crc8 (data : Bytes) : UInt8 := data.foldl crc8Byte 0xFF

/-- One iteration of the inner loop of `crc16` (`crc.go:26-30`). -/
def crc16Shift (crc : UInt16) : UInt16 :=
  if crc &&& 0x8000 ≠ 0 then (crc <<< 1) ^^^ 0x1021 else crc <<< 1

/-- The body of the outer loop of `crc16` (`crc.go:23-31`). -/
def crc16Byte (crc : UInt16) (b : UInt8) : UInt16 :=
  Nat.repeat crc16Shift 8 (crc ^^^ (b.toUInt16 <<< 8))

/-- `crc16` (`crc.go:20-35`). -/
def crc16 (data : Bytes) : UInt16 := data.foldl crc16Byte 0xFFFF

end Egts
