import Verif.Spec.Conn

/-! # Words for packets that differ in their headers only -/

namespace Egts

/-- The header is there, its checksum is right. -/
def HeaderOk (b : Bytes) : Prop := Frame.hcsPos b < b.length ∧ byteAt b (Frame.hcsPos b) = (crc8 (b.take (Frame.hcsPos b))).toNat

instance (b : Bytes) : Decidable (HeaderOk b) := by unfold HeaderOk; infer_instance

/-- Two packets with intact headers that agree in number, type, in whether they are encrypted, and in all that follows the header. They may
differ in protocol version, key number, prefix, routing, encryption algorithm, compression, priority and header encoding. -/
structure SameData (f g : Bytes) : Prop where
  honest : Frame.Honest f ∧ Frame.Honest g
  header : HeaderOk f ∧ HeaderOk g
  pid : Frame.pid f = Frame.pid g
  pt : Frame.pt f = Frame.pt g
  fdl : Frame.fdl f = Frame.fdl g
  encrypted : Frame.Encrypted f ↔ Frame.Encrypted g
  rest : Frame.rest f = Frame.rest g

/-- The header of `f` with another version, key number, flags, header encoding and other routing fields. -/
def headWith (prv skid flags he : UInt8) (routing f : Bytes) : Bytes :=
  [prv, skid, flags, UInt8.ofNat (11 + routing.length), he] ++ (f.take 10).drop 5 ++ routing

/-- The packet `f` with that header and its checksum. -/
def relabel (prv skid flags he : UInt8) (routing f : Bytes) : Bytes :=
  headWith prv skid flags he routing f ++ [crc8 (headWith prv skid flags he routing f)] ++ Frame.rest f

/-- CMP: the body is compressed. -/
abbrev Frame.Compressed (b : Bytes) : Prop := byteAt b 2 / 4 % 2 = 1

end Egts
