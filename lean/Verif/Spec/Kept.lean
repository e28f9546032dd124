import Verif.Spec.Layout

/-!
# Which bytes come back

`Layout.Complete t b`: nothing is missing in the data `b` of a subrecord of type `t`, though there may be too much. `Layout.Kept env t b`:
what the library makes of `b`, encoded again, is `b`. Both in terms of positions, as in `Spec/Layout.lean`.
-/

namespace Egts
namespace Layout

/-- How many bytes the fields of extended position data, sensors, counters and the terminal identity take. -/
def sizeExtPos (b : Bytes) : Nat := 1 + 2 * (bitAt b 0 0 + bitAt b 0 1 + bitAt b 0 2 + bitAt b 0 4) + bitAt b 0 3
def sizeSensors (b : Bytes) : Nat := 3 + count b 0 8 + 3 * count b 2 8
def sizeCounters (b : Bytes) : Nat := 1 + 3 * count b 0 8
def sizeTerm (b : Bytes) : Nat :=
  5 + 2 * bitAt b 4 0 + 15 * bitAt b 4 1 + 16 * bitAt b 4 2 + 3 * bitAt b 4 3 + 3 * bitAt b 4 5 + 2 * bitAt b 4 6 + 15 * bitAt b 4 7
def sizePos (b : Bytes) : Nat := 21 + 3 * PosWire.flag b 7

/-- No field of the data is cut. EGTS+ data must be such as the library writes. -/
def Complete (t : Nat) (b : Bytes) : Prop :=
  match t with
  | 0 => 3 ≤ b.length
  | 1 => sizeTerm b ≤ b.length
  | 5 => 5 ≤ b.length
  | 9 => 1 ≤ b.length
  | 15 => ∃ y : StorageRecord, y.Valid ∧ y.encode = .ok b
  | 16 => sizePos b ≤ b.length
  | 17 => sizeExtPos b ≤ b.length
  | 18 => sizeSensors b ≤ b.length
  | 19 => sizeCounters b ≤ b.length
  | 20 => 5 ≤ b.length
  | 21 => 5 ≤ b.length
  | 24 => 4 ≤ b.length
  | 25 => 4 ≤ b.length
  | 27 => 7 ≤ b.length
  | _ => True

/-- Nothing is too much either, bits without meaning are zero, and the values are such as the library can write. -/
def Kept (env : Env) (t : Nat) (b : Bytes) : Prop :=
  match t with
  -- no records within a record response
  | 0 => b.length = 3
  | 1 => b.length = sizeTerm b
  -- two texts, and the longer of them ends the data
  | 2 => (b.drop 11).count 0 = 2 ∧ b.getLast? = some 0
  | 5 => 5 ≤ b.length
  -- two texts, or three with the third not empty
  | 7 => b.count 0 = 2 ∨ b.count 0 = 3 ∧ b.getLast? = some 0 ∧ b.dropLast.getLast? ≠ some 0
  | 9 => b.length = 1
  | 15 => ∃ y : StorageRecord, y.Valid ∧ y.encode = .ok b
  -- whole kilometres per hour; with the highest bit of the course, the course is below 128; the coordinates are among the steady ones
  | 16 => b.length = sizePos b ∧ 10 ∣ PosWire.speed10 b ∧ (PosWire.dirh b = 1 → byteAt b 15 < 128) ∧
      encLat env (decLat (UInt32.ofNat (PosWire.lat b))) = UInt32.ofNat (PosWire.lat b) ∧
      encLon env (decLon (UInt32.ofNat (PosWire.lon b))) = UInt32.ofNat (PosWire.lon b)
  | 17 => b.length = sizeExtPos b ∧ byteAt b 0 < 32
  -- with an analog sensor, its mirror image is there
  | 18 => b.length = sizeSensors b ∧ ∀ k < 4, bitAt b 2 k = bitAt b 2 (7 - k)
  -- the second counter is zero, and then the first one, too
  | 19 => b.length = sizeCounters b ∧ (bitAt b 0 1 = 1 → num b 1 3 = 0 ∧ (bitAt b 0 0 = 1 → num b 4 3 = 0))
  | 20 => b.length = 5 ∧ byteAt b 4 < 8
  | 21 => b.length = 5 ∧ byteAt b 4 < 8
  | 24 => b.length = 4
  | 25 => b.length = 4
  | 27 => b.length = 7 ∧ byteAt b 0 < 128
  | _ => False

/-- `b` is a sequence of subrecords, their types and data satisfy `P`, and nothing is cut. -/
inductive EachSub (P : Nat → Bytes → Prop) : Bytes → Prop
  | nil : EachSub P []
  | cons (b : Bytes) : 3 + num b 1 2 ≤ b.length → P (byteAt b 0) ((b.drop 3).take (num b 1 2)) → EachSub P (b.drop (3 + num b 1 2)) →
      EachSub P b

/-- `b` is a sequence of service data records, their data satisfy `Q`, and nothing is cut. -/
inductive EachRecord (Q : Bytes → Prop) : Bytes → Prop
  | nil : EachRecord Q []
  | cons (b : Bytes) : ServiceDataRecord.headLength b + num b 0 2 ≤ b.length →
      Q ((b.drop (ServiceDataRecord.headLength b)).take (num b 0 2)) →
      EachRecord Q (b.drop (ServiceDataRecord.headLength b + num b 0 2)) → EachRecord Q b

/-- The records in the clear body `x` of the frame `b`: all of it, or what follows the three bytes of a response. -/
def recordsOf (b x : Bytes) : Bytes := if Frame.pt b = 0 then x.drop 3 else x

/-- The records of the body of a frame. -/
def recordBytes (b : Bytes) : Bytes := recordsOf b (Frame.body b)

/-- A key that decrypts what it has encrypted and nothing else, and does not make more of less. -/
structure _root_.Egts.SecretKey.Cipher (k : SecretKey) : Prop where
  inverse : ∀ x y, k.encode x = .ok y ↔ k.decode y = .ok x
  longer : ∀ x y x' y', k.encode x = .ok y → k.encode x' = .ok y' → x.length ≤ x'.length → y.length ≤ y'.length

end Layout
end Egts
