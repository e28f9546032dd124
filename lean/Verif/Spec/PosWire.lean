import Verif.Model.Sub

/-!
# The position-data subrecord as the protocol lays it out on the wire

    0 NTM(4) 4 LAT(4) 8 LONG(4) 12 FLG 13 SPD(2) 15 DIR 16 ODM(3) 19 DIN 20 SRC 21 ALT(3, if ALTE) SRCD

Numbers are little endian. In SPD bit 15 is the highest bit of the course (DIRH), bit 14 the sign of the
altitude (ALTS), the rest the speed in units of 0.1 km/h.
-/

namespace Egts

/-- Byte `i` as a number (0 past the end). -/
def byteAt (b : Bytes) (i : Nat) : Nat := (b.getD i 0).toNat

namespace PosWire

def time (b : Bytes) : Nat := byteAt b 0 + 256 * byteAt b 1 + 65536 * byteAt b 2 + 16777216 * byteAt b 3
def lat (b : Bytes) : Nat := byteAt b 4 + 256 * byteAt b 5 + 65536 * byteAt b 6 + 16777216 * byteAt b 7
def lon (b : Bytes) : Nat := byteAt b 8 + 256 * byteAt b 9 + 65536 * byteAt b 10 + 16777216 * byteAt b 11
/-- bit `i` of the flag byte -/
def flag (b : Bytes) (i : Nat) : Nat := byteAt b 12 / 2 ^ i % 2
/-- speed in 0.1 km/h -/
def speed10 (b : Bytes) : Nat := (byteAt b 13 + 256 * byteAt b 14) % 16384
def dirh (b : Bytes) : Nat := byteAt b 14 / 128
def alts (b : Bytes) : Nat := byteAt b 14 / 64 % 2
/-- the nine-bit course -/
def course (b : Bytes) : Nat := dirh b * 256 + byteAt b 15
def odometer (b : Bytes) : Nat := byteAt b 16 + 256 * byteAt b 17 + 65536 * byteAt b 18
/-- ALTE -/
abbrev hasAltitude (b : Bytes) : Prop := flag b 7 = 1
def altitude (b : Bytes) : Nat := byteAt b 21 + 256 * byteAt b 22 + 65536 * byteAt b 23

end PosWire

/-- `"0"` or `"1"`. -/
def bitStr (n : Nat) : Bytes := if n = 1 then go!"1" else go!"0"

/-- What the library makes of position bytes `b`: the speed is cut to whole km/h, the highest bit of
the course is ORed into bit 7 of its low byte, and four bytes are taken for the altitude. An absent
altitude, and the source data, are left as they were in the receiver `d0`. -/
def PosWire.record (d0 : SrPosData) (b : Bytes) : SrPosData :=
  { navigationTime := timeOffset + (PosWire.time b : Int) * 1000000000
    latitude := decLat (UInt32.ofNat (PosWire.lat b))
    longitude := decLon (UInt32.ofNat (PosWire.lon b))
    alte := bitStr (PosWire.flag b 7), lohs := bitStr (PosWire.flag b 6), lahs := bitStr (PosWire.flag b 5)
    mv := bitStr (PosWire.flag b 4), bb := bitStr (PosWire.flag b 3), cs := bitStr (PosWire.flag b 2)
    fix := bitStr (PosWire.flag b 1), vld := bitStr (PosWire.flag b 0)
    directionHighestBit := UInt8.ofNat (PosWire.dirh b)
    altitudeSign := UInt8.ofNat (PosWire.alts b)
    speed := UInt16.ofNat (PosWire.speed10 b / 10)
    direction := UInt8.ofNat (if PosWire.dirh b = 1 then 128 + byteAt b 15 % 128 else byteAt b 15)
    odometer := UInt32.ofNat (PosWire.odometer b)
    digitalInputs := UInt8.ofNat (byteAt b 19)
    source := UInt8.ofNat (byteAt b 20)
    altitude := if PosWire.flag b 7 = 1 then UInt32.ofNat (PosWire.altitude b + 16777216 * byteAt b 24) else d0.altitude
    sourceData := d0.sourceData }

end Egts
