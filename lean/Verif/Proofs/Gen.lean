import Verif.Model.Gen
import Verif.Props.Output

/-! # Lemmas about the packet generator -/

namespace Egts

set_option maxRecDepth 20000 in

theorem genEnc (env : Env) (a : GenArgs) : SrPosData.encode env (genPos a) = .ok (put32 351477040 ++ put32 (encLat env a.lat) ++ put32 (encLon env a.lon) ++ [0x9b, 0x54, 0x01, 172,191,0,0,144,0,30,0,0]) := by
  have h : encNavTime env (genPos a).navigationTime = 351477040 := encNavTime_rt env 351477040 (by decide)
  unfold SrPosData.encode
  rw [h]
  rw [show (genPos a).latitude = a.lat from rfl]
  rw [show (genPos a).longitude = a.lon from rfl]
  have hf : parseFlags ((genPos a).alte ++ (genPos a).lohs ++ (genPos a).lahs ++ (genPos a).mv ++ (genPos a).bb ++ (genPos a).cs ++ (genPos a).fix ++ (genPos a).vld) = .ok 0x9b := by
    show parseFlags (go!"10011011") = _
    decide +kernel
  have hs : posSpeedWord (genPos a).speed (genPos a).directionHighestBit (genPos a).altitudeSign = 340 := by
    show posSpeedWord 34 0 0 = 340
    decide +kernel
  have hd : posDirByte (genPos a).direction (genPos a).directionHighestBit = 172 := by
    show posDirByte 172 0 = 172
    decide +kernel
  have ho : put24 (genPos a).odometer = [191, 0, 0] := by
    show put24 191 = _
    decide +kernel
  have ha : optBytes (genPos a).alte (put24 (genPos a).altitude) = [30, 0, 0] := by
    show optBytes (go!"1") (put24 30) = _
    decide +kernel
  rw [hf, hs, hd, ho, ha, show put16 340 = [84, 1] by decide]
  generalize put32 351477040 ++ put32 (encLat env a.lat) ++ put32 (encLon env a.lon) = p
  show Except.ok _ = Except.ok _
  simp only [List.append_assoc]
  rfl

theorem genLiqEnc (a : GenArgs) : SrLiquidLevelSensor.encode (genLiquid a) = .ok ([65, 1, 0] ++ put32 (intToU32 a.liqLvl)) := by
  unfold genLiquid
  generalize intToU32 a.liqLvl = x
  with_unfolding_all rfl

/-- The subrecords sent. -/
def genSubs (x y l : UInt32) : Bytes :=
 [16, 24, 0] ++ (put32 351477040 ++ put32 x ++ put32 y ++ [0x9b, 0x54, 0x01, 172,191,0,0,144,0,30,0,0]) ++ ([27, 7, 0] ++ ([65, 1, 0] ++ put32 l))

theorem genRds (env : Env) (a : GenArgs) : RecordDataSet.encode env (genRecord a).recordDataSet = .ok (genSubs (encLat env a.lat) (encLon env a.lon) (intToU32 a.liqLvl)) := by
  unfold genRecord
  simp only [RecordDataSet.encode, RecordData.encode, SubData.length, SubData.encode, genEnc, genLiqEnc]
  generalize encLat env a.lat = x
  generalize encLon env a.lon = y
  generalize intToU32 a.liqLvl = z
  with_unfolding_all rfl

theorem genSds (env : Env) (a : GenArgs) : ServiceDataSet.encode env [genRecord a] = .ok ([37, 0, 1, 0, 19] ++ put32 (intToU32 a.oid) ++ put32 3436 ++ [2, 2] ++ genSubs (encLat env a.lat) (encLon env a.lon) (intToU32 a.liqLvl)) := by
  simp only [ServiceDataSet.encode, ServiceDataRecord.encode, genRds]
  unfold genRecord
  generalize encLat env a.lat = x
  generalize encLon env a.lon = y
  generalize intToU32 a.liqLvl = z
  generalize intToU32 a.oid = o
  with_unfolding_all rfl

/-- What is sent by way of a body. -/
def genBody (env : Env) (a : GenArgs) : Bytes :=
  [37, 0, 1, 0, 19] ++ put32 (intToU32 a.oid) ++ put32 3436 ++ [2, 2] ++ genSubs (encLat env a.lat) (encLon env a.lon) (intToU32 a.liqLvl)

theorem genBody_length (env : Env) (a : GenArgs) : (genBody env a).length = 52 := rfl

private theorem b0 : IsBit (go!"0") := by decide

private theorem b1 : IsBit (go!"1") := by decide

private theorem b00 : IsBits2 (go!"00") := by decide

private theorem b10 : IsBits2 (go!"10") := by decide

theorem genPos_wf (a : GenArgs) : (genPos a).WF :=
  ⟨b1, b0, b0, b1, b1, b0, b1, b1, ⟨351477040, by decide, rfl⟩, (by decide : (0 : UInt8) < 2), (by decide : (0 : UInt8) < 2),
    (by decide : (34 : UInt16) ≤ 1638), (by decide : (191 : UInt32).toNat < 2 ^ 24),
    fun _ => (by decide : (30 : UInt32).toNat < 2 ^ 24)⟩

theorem genRecord_wf (env : Env) (a : GenArgs) (hlat : 0 ≤ a.lat ∧ a.lat ≤ 90) (hlon : 0 ≤ a.lon ∧ a.lon ≤ 180) : (genRecord a).WF env := by
  refine ⟨b0, b0, b0, b10, b0, b1, b1, fun h => absurd (show go!"0" = go!"1" from h) (by decide), ?_, _, genRds env a, ?_, .inl rfl⟩
  · intro rd hrd
    simp only [genRecord, List.mem_cons, List.not_mem_nil, or_false] at hrd
    rcases hrd with rfl | rfl
    · exact ⟨_, _, rfl, ⟨genPos_wf a, hlat, hlon⟩, .inl rfl, genEnc env a, by simp [put32], .inl rfl⟩
    · exact ⟨_, _, rfl, ⟨b1, b00, b0, (by decide : (1 : UInt8) < 8)⟩, .inl rfl, genLiqEnc a, by simp [put32], .inl rfl⟩
  · simp [genSubs, put32]

theorem genBody_eq (env : Env) (a : GenArgs) (body : Bytes) (h : (genPackage a).Body env none body) : body = genBody env a := by
  obtain ⟨x, hx, ⟨_, rfl⟩ | ⟨_, k, hk, _⟩⟩ := h
  · have : ServiceDataSet.encode env [genRecord a] = .ok body := hx
    rw [genSds] at this
    injection this with this
    exact this.symm
  · cases hk

theorem genPackage_wf (env : Env) (a : GenArgs) (hlat : 0 ≤ a.lat ∧ a.lat ≤ 90) (hlon : 0 ≤ a.lon ∧ a.lon ≤ 180) : (genPackage a).WF env none := by
  refine ⟨⟨b00, b0, b00, b0, b10, .inr rfl⟩, .sds [genRecord a], genBody env a, rfl, rfl, ⟨by simp, ?_⟩,
    ⟨_, genSds env a, .inl ⟨rfl, rfl⟩⟩, by rw [genBody_length]; decide, by rw [genBody_length]; decide⟩
  intro x hx
  simp only [List.mem_singleton] at hx
  subst hx
  exact genRecord_wf env a hlat hlon

theorem genPackage_sound (a : GenArgs) : (genPackage a).Sound := by
  intro r hr rd hrd d hd
  simp only [genPackage, Package.records, List.mem_singleton] at hr
  subst hr
  simp only [genRecord, List.mem_cons, List.not_mem_nil, or_false] at hrd
  rcases hrd with rfl | rfl
  · cases hd
    exact fun h => absurd (show (0 : UInt8) = 1 from h) (by decide)
  · cases hd
    trivial

/-- What the receiver understands of the packet. -/
theorem gen_received (env : Env) (a : GenArgs) (hlat : 0 ≤ a.lat ∧ a.lat ≤ 90) (hlon : 0 ≤ a.lon ∧ a.lon ≤ 180) :
    ∃ out, ((genPackage a).encode env none).2 = .ok out ∧ WellFramed out ∧
      ∀ sp, ∃ p r d t1 t2 l1 l2, Accepts env ⟨out, sp⟩ p [r] ∧ p.packetIdentifier = intToU16 a.pid ∧
        r.obfe = go!"1" ∧ r.objectIdentifier = intToU32 a.oid ∧ r.sourceServiceType = 2 ∧ r.recordNumber = 1 ∧
        r.recordDataSet = [⟨t1, l1, some (.pos d)⟩, ⟨t2, l2, some (.liquid (genLiquid a))⟩] ∧
        |d.latitude - a.lat| ≤ 22 / 1000000000 ∧ |d.longitude - a.lon| ≤ 44 / 1000000000 ∧
        d = { genPos a with latitude := d.latitude, longitude := d.longitude } := by
  have hwf := genPackage_wf env a hlat hlon
  have hfit : ∀ body, (genPackage a).Body env none body → (genPackage a).fullHL + body.length + 2 < 2 ^ 16 := by
    intro body hb
    rw [genBody_eq env a body hb, genBody_length]
    exact (by decide : 11 + 52 + 2 < 2 ^ 16)
  obtain ⟨out, _, e1, _⟩ := C06_application_roundtrip_partial env none (genPackage a) {} [] [genRecord a] rfl hwf (genPackage_sound a) rfl (fun body hb => by
    rw [genSds] at hb
    injection hb with hb
    rw [← hb]
    exact (by decide : 11 + 52 < 2 ^ 16))
  refine ⟨out, e1, C42_library_frames env none (genPackage a) _ out (Prod.ext rfl e1) rfl (.inr rfl) hfit, fun sp => ?_⟩
  obtain ⟨out', q, e1', e2, ⟨dd, dd', body, s1, s2, s3, s4, s5⟩, _⟩ := C06_application_roundtrip_partial env none (genPackage a) {} sp [genRecord a] rfl hwf (genPackage_sound a) rfl (fun body hb => by
    rw [genSds] at hb
    injection hb with hb
    rw [← hb]
    exact (by decide : 11 + 52 < 2 ^ 16))
  rw [e1] at e1'
  injection e1' with e1'
  subst e1'
  have hdd : dd = .sds [genRecord a] := by
    have : some (FrameData.sds [genRecord a]) = some dd := s1
    injection this with this
    exact this.symm
  subst hdd
  cases dd' with
  | resp r => exact s3.elim
  | sds rs =>
    simp only [FrameData.Rel] at s3
    obtain ⟨r, rs', hr, hrs', rfl⟩ := List.forall₂_cons_left_iff.mp s3
    cases hrs'
    obtain ⟨g1, _, g3⟩ := hr
    obtain ⟨x1, xs, k1, kxs, hset⟩ := List.forall₂_cons_left_iff.mp g1
    obtain ⟨x2, ys, k2, kys, rfl⟩ := List.forall₂_cons_left_iff.mp kxs
    cases kys
    obtain ⟨u1, v1, _, i1, j1, m1, _⟩ := k1
    obtain ⟨u2, v2, _, i2, j2, m2, _⟩ := k2
    injection i1 with i1
    injection i2 with i2
    subst i1 i2
    cases v1 <;> try exact m1.elim
    rename_i d
    cases v2 <;> try exact m2.elim
    rename_i l
    obtain ⟨n1, n2, _, _, n3⟩ := m1
    have m2' : l = genLiquid a := m2
    subst m2'
    refine ⟨q, r, d, x1.subrecordType, x2.subrecordType, x1.subrecordLength, x2.subrecordLength, ⟨e2, by rw [s5]; rfl, s2⟩, by rw [s5]; rfl, by rw [g3]; rfl, by rw [g3]; rfl,
      by rw [g3]; rfl, by rw [g3]; rfl, ?_, n1, n2, n3⟩
    rw [hset]
    cases x1
    cases x2
    simp only at j1 j2
    rw [j1, j2]

end Egts
