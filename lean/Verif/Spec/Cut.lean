import Verif.Spec.Record

/-!
# Cut subrecords

Which beginnings of an encoded subrecord its decoder takes for a whole one: it does not notice that the last field is incomplete as long
as one byte of it is there.
-/

namespace Egts

/-- The width of the last of the optional fields that are present; if none is, of what comes before them. -/
def lastPresent (before : Nat) : List (Bytes × Nat) → Nat
  | [] => before
  | (flag, width) :: fields => lastPresent (if flag = go!"1" then width else before) fields

/-- The width of the last field on the wire. -/
def SubData.lastField : SubData → Nat
  | .pos d => lastPresent 1 [(d.alte, 3)]
  | .term d => lastPresent 1 [(d.hdide, 2), (d.imeie, 15), (d.imsie, 16), (d.lngce, 3), (d.nide, 3), (d.bse, 2), (d.mne, 15)]
  | .extPos d => lastPresent 1 [(d.vfe, 2), (d.hfe, 2), (d.pfe, 2), (d.sfe, 1), (d.nsfe, 2)]
  | .adSens d => lastPresent 1 [(d.asfe1, 3), (d.asfe2, 3), (d.asfe3, 3), (d.asfe4, 3), (d.asfe5, 3), (d.asfe6, 3), (d.asfe7, 3), (d.asfe8, 3)]
  | .counters d => lastPresent 1 [(d.cfe1, 3), (d.cfe2, 3), (d.cfe3, 3), (d.cfe4, 3), (d.cfe5, 3), (d.cfe6, 3), (d.cfe7, 3), (d.cfe8, 3)]
  | .liquid _ => 4
  | .absCntr _ => 3
  | _ => 1

/-- The first `n` of the bytes `b` of the subrecord are taken for a whole one. Dispatcher identity needs its type and a byte of the
identifier. Authentication info with a server sequence is also complete without it. EGTS+ data must be cut between two fields, and not
before the end of the status flags, up to where the same record without sensors and unknown fields reaches. -/
def SubData.Enough (b : Bytes) (n : Nat) : SubData → Prop
  | .disp _ => 2 ≤ n
  | .auth d => n = b.length ∨ d.serverSequence ≠ [] ∧ n = d.userName.length + 1 + d.userPassword.length + 1
  | .plus m => (∃ fs : List Proto.WField, (∀ f ∈ fs, f.Ok) ∧ b.take n = fs.flatMap Proto.WField.bytes) ∧
      ∃ b', StorageRecord.encode { m with sens := ({} : StorageRecord).sens, unknown := [] } = .ok b' ∧ b'.length ≤ n
  | d => b.length < n + d.lastField

end Egts
