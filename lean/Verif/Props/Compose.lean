import Verif.Props.Wire
import Verif.Props.Output
import Verif.Props.SubMisc

/-! # Record sets made by others: C18, C19, C21, C38 -/

namespace Egts

/-! ## C18 -/

theorem bind_after {α β : Type} (x : Except Err α) (f g : α → Except Err β) (k : β → Except Err β) (h : ∀ a, f a = (g a).bind k) :
    x.bind f = (x.bind g).bind k := by
  cases x with
  | error e => rfl
  | ok a => exact h a

/-- Subrecords on the wire, one after the other: any types, any data. -/
def subrecordsWire (subs : List (UInt8 × Bytes)) : Bytes := subs.flatMap fun s => subrecordWire s.1 s.2

/-- As `C18_record_sets_compose`, but for any complete subrecords, of known or unknown types, whatever their data: whether they are
accepted or not, what follows is decoded after them as if it stood alone. -/
theorem C18_any_subrecords (env : Env) (subs : List (UInt8 × Bytes)) (h : ∀ s ∈ subs, s.2.length < 2 ^ 16) (prior : List RecordData)
    (rest : Bytes) :
    RecordDataSet.decode env prior (subrecordsWire subs ++ rest) =
      (RecordDataSet.decode env prior (subrecordsWire subs)).bind fun mid => RecordDataSet.decode env mid rest := by
  induction subs generalizing prior with
  | nil => simp [subrecordsWire, rds_decode_nil, Except.bind]
  | cons s subs ih =>
    have hs := h s List.mem_cons_self
    have ih := fun p => ih (fun x hx => h x (List.mem_cons_of_mem _ hx)) p
    have e : subrecordsWire (s :: subs) = subrecordWire s.1 s.2 ++ subrecordsWire subs := rfl
    rw [e, List.append_assoc, C65_subrecord_decode env s.1 s.2 hs, C65_subrecord_decode env s.1 s.2 hs]
    exact bind_after _ _ _ _ fun out => ih _

/-- Service data records on the wire: any heads, times (in seconds since 2010) and data. -/
def recordsWire (rs : List (ServiceDataRecord × Nat × Bytes)) : Bytes := rs.flatMap fun r => r.1.wire r.2.1 r.2.2

/-- The same for service data records. -/
theorem C18_any_records (env : Env) (rs : List (ServiceDataRecord × Nat × Bytes))
    (h : ∀ r ∈ rs, r.1.FlagsWF ∧ r.2.1 < 2 ^ 32 ∧ r.2.2.length < 2 ^ 16) (prior : List ServiceDataRecord) (rest : Bytes) :
    ServiceDataSet.decode env prior (recordsWire rs ++ rest) =
      (ServiceDataSet.decode env prior (recordsWire rs)).bind fun mid => ServiceDataSet.decode env mid rest := by
  induction rs generalizing prior with
  | nil => simp [recordsWire, sds_decode_nil, Except.bind]
  | cons r rs ih =>
    obtain ⟨h1, h2, h3⟩ := h r List.mem_cons_self
    have ih := fun p => ih (fun x hx => h x (List.mem_cons_of_mem _ hx)) p
    have e : recordsWire (r :: rs) = r.1.wire r.2.1 r.2.2 ++ recordsWire rs := rfl
    rw [e, List.append_assoc, C65_record_decode env r.1 h1 r.2.1 h2 r.2.2 h3, C65_record_decode env r.1 h1 r.2.1 h2 r.2.2 h3]
    exact bind_after _ _ _ _ fun out => ih _

/-- A counter, a subrecord of unknown type, and a state that is too short: it is an error, whatever follows. -/
example (env : Env) (rest : Bytes) : RecordDataSet.decode env [] (subrecordsWire [(25, [1, 2, 3, 4]), (99, [7]), (21, [0, 1])] ++ rest) = .error .eof := by
  rw [C18_any_subrecords env _ (by decide)]
  rfl

/-- The first two: what follows is decoded after the counter. -/
example (env : Env) (rest : Bytes) : RecordDataSet.decode env [] (subrecordsWire [(25, [1, 2, 3, 4]), (99, [7])] ++ rest) =
    RecordDataSet.decode env [⟨25, 4, some (.absCntr ⟨1, 0x040302⟩)⟩] rest := by
  rw [C18_any_subrecords env _ (by decide)]
  rfl

/-! ## C19 -/

/-- As `C19_unknown_inserted`, but between any subrecords: whatever their types and data, and whatever follows. -/
theorem C19_inserted_anywhere (env : Env) (t : UInt8) (ht : t ∉ supportedTypes) (c : Bytes) (hc : c.length < 2 ^ 16)
    (subs : List (UInt8 × Bytes)) (h : ∀ s ∈ subs, s.2.length < 2 ^ 16) (prior : List RecordData) (rest : Bytes) :
    RecordDataSet.decode env prior (subrecordsWire subs ++ subrecordWire t c ++ rest) =
      RecordDataSet.decode env prior (subrecordsWire subs ++ rest) := by
  rw [List.append_assoc, C18_any_subrecords env subs h, C18_any_subrecords env subs h]
  have e : subrecordWire t c = rawSubrecord t c := by
    rw [subrecordWire, leBytes2_nat hc, rawSubrecord, put16, UInt16.toNat_ofNat', Nat.mod_eq_of_lt hc]; rfl
  congr 1
  funext mid
  rw [e, C19_unknown_skipped env t ht c hc]

example (env : Env) : RecordDataSet.decode env [] (subrecordsWire [(25, [1, 2, 3, 4])] ++ subrecordWire 100 [9, 9] ++ subrecordWire 9 [5]) =
    .ok [⟨25, 4, some (.absCntr ⟨1, 0x040302⟩)⟩, ⟨9, 1, some (.result ⟨5⟩)⟩] := by
  rw [C19_inserted_anywhere env 100 (by decide) _ (by decide) _ (by decide)]
  rfl

/-! ## C21 -/

/-- An accepted packet has at most 9362 records, and the lengths stated in the acknowledgement are the true ones: nothing is lost in
16 bits. -/
theorem C21_ack_fits (env : Env) (now : Int) (client : UInt32) (pkt : Slice) (p : Package) (recs : List ServiceDataRecord)
    (h : Accepts env pkt p recs) :
    recs.length ≤ 65535 / 7 ∧ ((∀ r ∈ recs, r.hasResp = false) →
      ∃ ack, (writes (handlePacket env now client pkt).effs).head? = some ack ∧ Frame.hl ack = 11 ∧
        Frame.fdl ack = (if recs = [] then 3 else 10 + 6 * recs.length) ∧ ack.length = Frame.hl ack + Frame.fdl ack + 2) := by
  refine ⟨by have := accepts_count h; omega, fun hr => ?_⟩
  obtain ⟨ack, ⟨_, hn, ha⟩, h2⟩ := handlePacket_app env now client h hr
  obtain ⟨_, h3, h4, h5⟩ := createPtResponse_framed env _ _ _ recs hn ack ha
  refine ⟨ack, ?_, h4, h5, by rw [h3, h4, h5]; split <;> omega⟩
  rw [h2]
  simp only [writes_append, writes_saves, List.nil_append]
  rfl

example (env : Env) (sp : Bytes) : Accepts env ⟨Ex.good, sp⟩ (Ex.pkg 91 141 48568 Ex.goodRecs) Ex.goodRecs ∧ (∀ r ∈ Ex.goodRecs, r.hasResp = false) :=
  ⟨Ex.good_accepts env sp, by decide⟩

/-! ## C38 -/

/-- The records inside a package, of either kind. -/
def Package.recordsInside (p : Package) : List ServiceDataRecord :=
  match p.servicesFrameData with
  | some (.sds s) => s
  | some (.resp r) => r.sdr.getD []
  | none => []

/-- A flag string somewhere in the record does not spell a byte. The terminal identity is left out, see `C38_false`. -/
def ServiceDataRecord.Misspelt (r : ServiceDataRecord) : Prop :=
  ¬ SpellsByte (r.ssod ++ r.rsod ++ r.grp ++ r.rpp ++ r.tmfe ++ r.evfe ++ r.obfe) ∨
    ∃ rd ∈ r.recordDataSet, ∃ d, rd.subrecordData = some d ∧ (∀ t, d ≠ .term t) ∧ ∃ s ∈ d.flagStrings, ¬ SpellsByte s

theorem rds_encode_bad (env : Env) (rds : List RecordData) (rd : RecordData) (hm : rd ∈ rds) (f : Fault) (h : rd.encode env = .error f) :
    ∃ f, RecordDataSet.encode env rds = .error f := by
  induction rds with
  | nil => cases hm
  | cons x rest ih =>
    unfold RecordDataSet.encode
    rcases List.mem_cons.mp hm with rfl | hm
    · rw [h]; exact ⟨f, rfl⟩
    · obtain ⟨f', h'⟩ := ih hm
      cases x.encode env with
      | error f => exact ⟨f, rfl⟩
      | ok b => rw [h']; exact ⟨f', rfl⟩

theorem sds_encode_bad (env : Env) (s : List ServiceDataRecord) (r : ServiceDataRecord) (hm : r ∈ s) (f : Fault) (h : r.encode env = .error f) :
    ∃ f, ServiceDataSet.encode env s = .error f := by
  induction s with
  | nil => cases hm
  | cons x rest ih =>
    unfold ServiceDataSet.encode
    rcases List.mem_cons.mp hm with rfl | hm
    · rw [h]; exact ⟨f, rfl⟩
    · obtain ⟨f', h'⟩ := ih hm
      cases x.encode env with
      | error f => exact ⟨f, rfl⟩
      | ok b => rw [h']; exact ⟨f', rfl⟩

theorem misspelt_encode (env : Env) (r : ServiceDataRecord) (h : r.Misspelt) : ∃ f, r.encode env = .error f := by
  rcases h with h | ⟨rd, hm, d, hd, hk, hs⟩
  · exact C38_record_flags env r h
  · obtain ⟨e, he⟩ := C38_subrecord_flags_partial env d hs hk
    have : ∃ f, rd.encode env = .error f := by
      unfold RecordData.encode
      rw [hd]
      generalize (if rd.subrecordType = 0 then liftErr (inferType (some d)) else pure rd.subrecordType) = t
      cases t with
      | error f => exact ⟨f, rfl⟩
      | ok t => simp only [ok_bind, he]; exact ⟨.err e, rfl⟩
    obtain ⟨f, hf⟩ := this
    obtain ⟨f, hf⟩ := rds_encode_bad env _ rd hm f hf
    exact ⟨f, by unfold ServiceDataRecord.encode; rw [hf]; rfl⟩

/-- A malformed flag string anywhere in a package, in one of many records or in one of their subrecords: nothing is encoded.
Missing: the terminal identity (`C38_false`). -/
theorem C38_anywhere_partial (env : Env) (key : Option SecretKey) (p : Package) (r : ServiceDataRecord) (hm : r ∈ p.recordsInside)
    (h : r.Misspelt) : ∃ f, (p.encode env key).2 = .error f := by
  obtain ⟨f, hf⟩ := misspelt_encode env r h
  have hb : ∃ f, p.fillHL.bodyBytes env key = .error f := by
    have hsd : p.fillHL.servicesFrameData = p.servicesFrameData := by unfold Package.fillHL; split <;> rfl
    unfold Package.recordsInside at hm
    unfold Package.bodyBytes
    rw [hsd]
    split at hm
    · rename_i s hs
      obtain ⟨f, hf⟩ := sds_encode_bad env s r hm f hf
      rw [hs]
      exact ⟨f, by simp only [FrameData.encode, hf]; rfl⟩
    · rename_i y hs
      rw [hs]
      cases hy : y.sdr with
      | none => rw [hy] at hm; cases hm
      | some s =>
        rw [hy] at hm
        obtain ⟨f, hf⟩ := sds_encode_bad env s r hm f hf
        exact ⟨f, by simp only [FrameData.encode, PtResponse.encode, hy, hf]; rfl⟩
    · cases hm
  obtain ⟨f', hf'⟩ := hb
  unfold Package.encode
  cases parseFlags (p.prefix_ ++ p.route ++ p.encryptionAlg ++ p.compression ++ p.priority) with
  | error e => exact ⟨.err e, rfl⟩
  | ok fl => simp only [hf']; exact ⟨f', rfl⟩

/-- A package whose second record has a state with a malformed flag. -/
example : ∃ (p : Package) (r : ServiceDataRecord), r ∈ p.recordsInside ∧ r.Misspelt ∧ p.recordsInside.length = 2 :=
  ⟨{ prefix_ := go!"00", route := go!"0", encryptionAlg := go!"00", compression := go!"0", priority := go!"00", packetType := 1
     servicesFrameData := some (.sds [wireRecord, { wireRecord with recordDataSet := [⟨21, 0, some (.state { nms := go!"2", ibu := go!"0", bbu := go!"1" })⟩] }]) },
    _, List.mem_cons_of_mem _ List.mem_cons_self,
    .inr ⟨_, List.mem_cons_self, _, rfl, by simp, _, List.mem_singleton.mpr rfl, by decide +kernel⟩, rfl⟩

end Egts
