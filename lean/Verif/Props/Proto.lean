import Verif.Proofs.ProtoValid
import Verif.Model.Sub

/-! # EGTS+ data: the protobuf messages (C75, C76) -/

namespace Egts

open Proto

/-! ## C75 -/

/-- Every record whose required fields are set is encoded, and decoding the result, into any receiver, gives the same record:
all optional fields (set or not), all repeated messages in their order, and the unknown fields. -/
theorem C75_roundtrip (m : StorageRecord) (h : m.Valid) : ∃ b, m.encode = .ok b ∧ ∀ prior : StorageRecord, prior.decode b = .ok m := by
  obtain ⟨b, h1, h2⟩ := marshal_unmarshal h
  exact ⟨b, by simp only [StorageRecord.encode, h1], fun prior => by simp only [StorageRecord.decode, h2]⟩

/-- Whatever is decoded can be encoded, and is the same when decoded again. -/
theorem C75_decoded_roundtrip (b : Bytes) (hb : b.length < 2 ^ 32) (prior m : StorageRecord) (h : prior.decode b = .ok m) :
    ∃ b', m.encode = .ok b' ∧ ∀ prior' : StorageRecord, prior'.decode b' = .ok m := by
  apply C75_roundtrip
  unfold StorageRecord.decode at h
  split at h
  · rename_i m' hm
    cases h
    exact unmarshal_valid hm hb
  · cases h

/-- A record without one of the required fields is refused by both directions. -/
theorem C75_required (m : StorageRecord) :
    ((∃ b, m.encode = .ok b) ↔ m.recordNumber.isSome ∧ m.timeStamp.isSome ∧ m.statusFlags.isSome) ∧
    ∀ (b : Bytes) (prior : StorageRecord), prior.decode b = .ok m → m.recordNumber.isSome ∧ m.timeStamp.isSome ∧ m.statusFlags.isSome := by
  constructor
  · unfold StorageRecord.encode marshal
    cases m.recordNumber <;> cases m.timeStamp <;> cases m.statusFlags <;> simp
  · intro b prior h
    unfold StorageRecord.decode at h
    split at h
    · rename_i m' hm
      cases h
      exact ((unmarshalRecord_iff b m).mp hm).2
    · cases h

/-- The record of `egts_sr_egtsplus_data_test.go`, with two reasons and an unknown field besides. -/
def plusExample : StorageRecord :=
  { recordNumber := some 60027, timeStamp := some 1549747771, recordReason := [5, 0xFFFFFFFF], statusFlags := some 0,
    sens := [[], [], [], [], [], [], [], [], [],
      [⟨[some (.num 1), none, none, none, none, some (.num 0xFFFFFFD8), none, none, none, none, none, none, none, none, none], []⟩,
       ⟨[some (.num 2), none, none, none, none, none, none, none, none, none, none, none, none, none, none], [0x80, 0x01, 0x07]⟩],
      [⟨[some (.num 1), none, none], []⟩], [], [], [⟨[none, some (.bytes [1, 2, 3]), some (.flag true)], []⟩], [], [], [], []],
    unknown := [0x28, 0x96, 0x01] }

theorem plusExample_bytes : marshal plusExample =
    some [0x08, 0xFB, 0xD4, 0x03, 0x15, 0x3B, 0x46, 0x5F, 0x5C, 0x18, 5, 0x18, 0xFF, 0xFF, 0xFF, 0xFF, 0xFF, 0xFF, 0xFF, 0xFF, 0xFF, 1,
      0x25, 0, 0, 0, 0, 0x82, 0x01, 0x04, 0x08, 0x01, 0x30, 0x4F, 0x82, 0x01, 0x05, 0x08, 0x02, 0x80, 0x01, 0x07, 0x8A, 0x01, 0x02,
      0x08, 0x01, 0xA2, 0x01, 0x07, 0x12, 3, 1, 2, 3, 0x18, 1, 0x28, 0x96, 0x01] := by decide +kernel

theorem plusExample_unmarshal : unmarshal [0x08, 0xFB, 0xD4, 0x03, 0x15, 0x3B, 0x46, 0x5F, 0x5C, 0x18, 5, 0x18, 0xFF, 0xFF, 0xFF, 0xFF, 0xFF,
      0xFF, 0xFF, 0xFF, 0xFF, 1,
      0x25, 0, 0, 0, 0, 0x82, 0x01, 0x04, 0x08, 0x01, 0x30, 0x4F, 0x82, 0x01, 0x05, 0x08, 0x02, 0x80, 0x01, 0x07, 0x8A, 0x01, 0x02,
      0x08, 0x01, 0xA2, 0x01, 0x07, 0x12, 3, 1, 2, 3, 0x18, 1, 0x28, 0x96, 0x01] = some plusExample := by decide +kernel

/-- The hypothesis of `C75_roundtrip` holds of this record. -/
theorem plusExample_valid : plusExample.Valid := unmarshal_valid plusExample_unmarshal (by decide)

example : ∃ b, plusExample.encode = .ok b ∧ b.length = 60 := ⟨_, by rw [StorageRecord.encode, plusExample_bytes], rfl⟩

/-- The hypotheses of `C75_decoded_roundtrip`: the reasons are packed, a field occurs twice, and a tag is longer than needed; the
bytes that are encoded are other bytes. -/
example : ∃ m, ({} : StorageRecord).decode [0x08, 1, 0x15, 1, 0, 0, 0, 0x1A, 3, 5, 0x96, 1, 0x25, 2, 0, 0, 0, 0x88, 0, 7] = .ok m ∧
    m.recordNumber = some 7 ∧ m.recordReason = [5, 150] ∧
    m.encode = .ok [0x08, 7, 0x15, 1, 0, 0, 0, 0x18, 5, 0x18, 0x96, 1, 0x25, 2, 0, 0, 0] :=
  ⟨{ recordNumber := some 7, timeStamp := some 1, recordReason := [5, 150], statusFlags := some 2 }, by decide +kernel, rfl, rfl, by decide +kernel⟩

/-- A record without status flags. -/
example : ({ recordNumber := some 7, timeStamp := some 1 } : StorageRecord).encode = .error .proto ∧
    ({} : StorageRecord).decode [0x08, 7, 0x15, 1, 0, 0, 0] = .error .proto := by decide +kernel

/-! ## C76 -/

/-- The decoder accepts the byte strings that are a record in the protobuf format with the required fields, and gives the record
that they stand for. -/
theorem C76_decode_iff (b : Bytes) (prior m : StorageRecord) :
    prior.decode b = .ok m ↔ IsRecord b m ∧ m.recordNumber.isSome ∧ m.timeStamp.isSome ∧ m.statusFlags.isSome := by
  rw [← unmarshalRecord_iff]
  unfold StorageRecord.decode
  constructor
  · intro h
    split at h
    · rename_i m' hm
      cases h
      exact hm
    · cases h
  · intro h
    rw [h]

/-- A byte string stands for one record at most. -/
theorem C76_unambiguous (b : Bytes) (m m' : StorageRecord) (h : IsRecord b m) (h' : IsRecord b m') : m = m' := isRecord_unique h h'

/-- The encoder writes the record in the protobuf format. -/
theorem C76_encode_format (m : StorageRecord) (h : m.Valid) : ∃ b, m.encode = .ok b ∧ IsRecord b m := by
  obtain ⟨b, h1, h2⟩ := marshal_isRecord h
  exact ⟨b, by simp only [StorageRecord.encode, h1], h2⟩

/-- The encoder writes the fields of the description in the order of their numbers, each with the shortest tag, and the unknown
fields after them. -/
theorem C76_encode_order (m : StorageRecord) (h : m.Valid) : ∃ (b : Bytes) (fs : List WField), m.encode = .ok b ∧
    b = fs.flatMap WField.bytes ++ m.unknown ∧
    (fs.map (·.num)).Pairwise (· ≤ ·) ∧
    ∀ f ∈ fs, f.Ok ∧ recordKnows f = true ∧ ∀ t, IsVarint (8 * f.num + f.wt) t → f.tag.length ≤ t.length := by
  obtain ⟨b, fs, h1, h2⟩ := marshal_order h
  exact ⟨b, fs, by simp only [StorageRecord.encode, h1], h2⟩

/-- The messages and their fields are those of the published description: for each message of the file, the repeated field of
`storage_record` with its number has the numbers and types of its fields, and there are no others. -/
theorem C76_published_description :
    (∀ msg ∈ protoFile, 7 ≤ msg.number ∧ ∃ sch ∈ schemas[msg.number - 7]?,
      sch.Perm (msg.fields.map fun f => ⟨f.2.1, f.2.2.kind⟩)) ∧
    protoFile.length = schemas.length ∧ (protoFile.map (·.number)).Nodup := by
  refine ⟨?_, by decide, by decide⟩
  decide +kernel

example : ∃ b, plusExample.encode = .ok b ∧ IsRecord b plusExample := C76_encode_format _ plusExample_valid

/-- Bytes that are not a record: a varint without an end, a length beyond the end, the end of a group that is not open, a field
numbered 0. -/
example : ∀ b ∈ ([[0x08, 0x80], [0x1A, 2, 1], [0x0C], [0x00, 1]] : List Bytes), ∀ m, ¬ IsRecord ([0x08, 1, 0x15, 1, 0, 0, 0, 0x25, 2, 0, 0, 0] ++ b) m := by
  intro b hb m h
  have e : ∀ b ∈ ([[0x08, 0x80], [0x1A, 2, 1], [0x0C], [0x00, 1]] : List Bytes), parse recordField (fun u m => { m with unknown := m.unknown ++ u })
      ([0x08, 1, 0x15, 1, 0, 0, 0, 0x25, 2, 0, 0, 0] ++ b).length ([0x08, 1, 0x15, 1, 0, 0, 0, 0x25, 2, 0, 0, 0] ++ b) {} = none := by decide +kernel
  have := (parse_iff _ m).mpr h
  rw [e b hb] at this
  cases this

end Egts
