import Verif.Spec.Server
import Verif.Proofs.Package
import Verif.Proofs.Depth

/-! # The packets written by the receiver -/

namespace Egts

/-- Encoding of a confirmation. -/
theorem confirmation_encode (env : Env) (r : ServiceDataRecord) :
    (confirmation r).encode env = .ok ([0, 3, 0] ++ put16 r.recordNumber ++ [0]) := by
  with_unfolding_all rfl

theorem confirmation_wf (env : Env) (r : ServiceDataRecord) : (confirmation r).WF env :=
  ⟨_, put16 r.recordNumber ++ [0], rfl, trivial, .inl rfl, by with_unfolding_all rfl, by simp [put16], .inr (by simp [put16, confirmation])⟩

theorem confirmations_encode (env : Env) (recs : List ServiceDataRecord) :
    ∃ b, RecordDataSet.encode env (recs.map confirmation) = .ok b ∧ b.length = 6 * recs.length := by
  induction recs with
  | nil => exact ⟨[], rfl, rfl⟩
  | cons r recs ih =>
    obtain ⟨b, e, l⟩ := ih
    refine ⟨[0, 3, 0] ++ put16 r.recordNumber ++ [0] ++ b, by simp only [List.map_cons, RecordDataSet.encode, confirmation_encode, e, ok_bind, pure_eq_ok], ?_⟩
    simp [put16, l]; omega

theorem confirmations_same (env : Env) (recs : List ServiceDataRecord) (l : List RecordData)
    (h : List.Forall₂ (RecordData.ReadBack env) (recs.map confirmation) l) : l = recs.map confirmation := by
  induction recs generalizing l with
  | nil => cases h; rfl
  | cons r recs ih =>
    rw [List.map_cons] at h
    cases h with
    | cons h1 h2 =>
      rw [ih _ h2, List.map_cons]
      congr 1
      obtain ⟨x, y, enc, e1, e2, e3, e4, e5, e6⟩ := h1
      cases e1
      rename_i b _
      obtain ⟨t, n, d⟩ := b
      simp only at e2 e4 e6
      subst e2
      cases y with
      | resp y =>
        have e3' : y = _ := e3
        subst e3'
        have e5' : (SubData.resp { confirmedRecordNumber := r.recordNumber, recordStatus := 0 }).encode env = .ok (put16 r.recordNumber ++ [0]) := by
          with_unfolding_all rfl
        rw [e5'] at e5; cases e5
        have : n = 3 := UInt16.toNat_inj.mp (by rw [e6]; simp [put16])
        subst this
        subst e4
        rfl
      | _ => cases e3

/-- The response section of `createPtResponse`. -/
def respSection (pid : UInt16) (code st : UInt8) (recs : List ServiceDataRecord) : PtResponse :=
  { responsePacketID := pid
    processingResult := code
    sdr := if recs = [] then none else some [ackRecord (UInt16.ofNat (6 * recs.length)) st (recs.map confirmation)] }

theorem ackRecord_wf (env : Env) (st : UInt8) (recs : List ServiceDataRecord) (h : 6 * recs.length < 65536) :
    (ackRecord (UInt16.ofNat (6 * recs.length)) st (recs.map confirmation)).WF env := by
  obtain ⟨b, e, l⟩ := confirmations_encode env recs
  have hd : IsBit (go!"0") ∧ IsBit (go!"1") ∧ IsBits2 (go!"00") := by decide
  refine ⟨hd.1, hd.1, hd.2.1, hd.2.2, hd.1, hd.1, hd.1, fun h => absurd h (by simp [ackRecord]), ?_, b, e, by rw [l]; exact h, .inr ?_⟩
  · intro rd hrd
    obtain ⟨r, _, rfl⟩ := List.mem_map.mp hrd
    exact confirmation_wf env r
  · show (UInt16.ofNat (6 * recs.length)).toNat = _
    rw [UInt16.toNat_ofNat', l, Nat.mod_eq_of_lt h]

theorem respSection_encode (env : Env) (pid : UInt16) (code st : UInt8) (recs : List ServiceDataRecord) :
    ∃ b, (respSection pid code st recs).encode env = .ok b ∧ b.length = if recs = [] then 3 else 10 + 6 * recs.length := by
  obtain ⟨b, e, l⟩ := confirmations_encode env recs
  by_cases h : recs = []
  · subst h
    exact ⟨_, rfl, by simp [put16]⟩
  · have hp : parseFlags (go!"0" ++ go!"0" ++ go!"1" ++ go!"00" ++ go!"0" ++ go!"0" ++ go!"0") = .ok 32 := by with_unfolding_all rfl
    have hr : ∃ x, (ackRecord (UInt16.ofNat (6 * recs.length)) st (recs.map confirmation)).encode env = .ok x ∧ x.length = 7 + 6 * recs.length := by
      unfold ServiceDataRecord.encode
      have e' : RecordDataSet.encode env (ackRecord (UInt16.ofNat (6 * recs.length)) st (recs.map confirmation)).recordDataSet = .ok b := e
      rw [e']
      simp only [ok_bind, ackRecord, hp, liftErr]
      refine ⟨_, rfl, ?_⟩
      simp [put16, optBytes, one, l]
      omega
    obtain ⟨x, ex, lx⟩ := hr
    refine ⟨put16 pid ++ [code] ++ (x ++ []), ?_, ?_⟩
    · simp only [respSection, if_neg h, PtResponse.encode, ServiceDataSet.encode, ex, ok_bind, pure_eq_ok]
    · simp [put16, h, lx]; omega

theorem respSection_same (env : Env) (pid : UInt16) (code st : UInt8) (recs : List ServiceDataRecord) (h : 6 * recs.length < 65536)
    (r : PtResponse) (hs : (respSection pid code st recs).Rel env (SubData.ReadBack env) r) : r = respSection pid code st recs := by
  obtain ⟨a, b, c⟩ := r
  obtain ⟨h1, h2, h3, h4⟩ := hs
  simp only at h1 h2 h3 h4
  subst h1 h2
  by_cases hr : recs = []
  · have := h4.mpr (by simp [respSection, hr])
    subst this
    simp [respSection, hr]
  · simp only [respSection, if_neg hr, Option.getD_some] at h3 h4 ⊢
    congr 1
    cases c with
    | none => exact absurd (h4.mp rfl) (by simp)
    | some l =>
      simp only [Option.getD_some] at h3
      cases h3 with
      | cons q1 q2 =>
        cases q2
        congr 2
        obtain ⟨g1, ⟨enc, g2, g3⟩, g4⟩ := q1
        rw [g4]
        have e1 := confirmations_same env recs _ g1
        obtain ⟨b', eb, lb⟩ := confirmations_encode env recs
        have e2 : RecordDataSet.encode env (recs.map confirmation) = .ok enc := g2
        rw [eb] at e2
        injection e2 with e2
        subst e2
        rw [e1]
        have e3 : ∀ n : UInt16, n.toNat = b'.length → n = UInt16.ofNat (6 * recs.length) := by
          intro n hn; apply UInt16.toNat_inj.mp; rw [hn, lb, UInt16.toNat_ofNat', Nat.mod_eq_of_lt h]
        rw [e3 _ g3]
        rfl

theorem createPtResponse_eq (env : Env) (pid : UInt16) (code st : UInt8) (recs : List ServiceDataRecord) :
    ∃ fdl, createPtResponse env pid code st (recs.map confirmation) =
      ((ackPackage fdl pid (.resp (respSection pid code st recs))).encode env none).2 := by
  obtain ⟨b, e, l⟩ := confirmations_encode env recs
  obtain ⟨c, ec, lc⟩ := respSection_encode env pid code st recs
  refine ⟨UInt16.ofNat c.length, ?_⟩
  have : createPtResponse env pid code st (recs.map confirmation) = (do
      let fdl ← PtResponse.length env (respSection pid code st recs)
      ((ackPackage fdl pid (.resp (respSection pid code st recs))).encode env none).2) := by
    unfold createPtResponse respSection
    by_cases h : recs = []
    · subst h; rfl
    · have h' : recs.map confirmation ≠ [] := by simp [h]
      simp only [if_pos h', RecordDataSet.length, e, lengthOrPanic, ok_bind, pure_eq_ok, if_neg h, l]
  rw [this]
  simp only [PtResponse.length, ec, lengthOrPanic, ok_bind]

/-- `createPtResponse` succeeds and its packet decodes to what was put in. -/
theorem createPtResponse_ok (env : Env) (pid : UInt16) (code st : UInt8) (recs : List ServiceDataRecord) (h : recs.length ≤ 10900) :
    ∃ b, createPtResponse env pid code st (recs.map confirmation) = .ok b ∧ b ≠ [] ∧ IsResponse env b pid (respSection pid code st recs) := by
  obtain ⟨fdl, hc⟩ := createPtResponse_eq env pid code st recs
  obtain ⟨c, ec, lc⟩ := respSection_encode env pid code st recs
  have lc' : 3 ≤ c.length ∧ c.length ≤ 10 + 6 * recs.length := by rw [lc]; split <;> omega
  generalize hp : ackPackage fdl pid (.resp (respSection pid code st recs)) = p at *
  have hd : p.servicesFrameData = some (.resp (respSection pid code st recs)) := by rw [← hp]; rfl
  have hbody : ∀ body, p.Body env none body → body = c := by
    intro body hb
    unfold Package.Body at hb
    rw [hd] at hb
    obtain ⟨x, e1, ⟨_, rfl⟩ | ⟨_, k, hk, _⟩⟩ := hb
    · have e1' : (respSection pid code st recs).encode env = .ok body := e1
      rw [ec] at e1'; cases e1'; rfl
    · cases hk
  have hpb : p.Body env none c := by
    unfold Package.Body
    rw [hd]
    exact ⟨c, ec, .inl ⟨by rw [← hp]; rfl, rfl⟩⟩
  have hfull : p.fullHL = 11 := by rw [← hp]; rfl
  have hwf : p.WF env none := by
    refine ⟨?_, .resp (respSection pid code st recs), c, hd, by rw [← hp]; rfl, ?_, hpb, by omega, by omega⟩
    · rw [← hp]
      exact (by decide : (ackPackage 0 0 (.sds [])).HeadWF)
    · intro s hs
      by_cases hr : recs = []
      · simp [respSection, hr] at hs
      · simp only [respSection, if_neg hr] at hs
        cases hs
        intro x hx
        rw [List.mem_singleton.mp hx]
        exact ackRecord_wf env st recs (by omega)
  have hrt := fun p0 sp => package_rt env none p0 sp hwf (fun body hb => by rw [hbody body hb, hfull]; omega)
    (fun hne => absurd (by rw [← hp]; rfl) hne)
  obtain ⟨out, _, ho, _, _⟩ := hrt {} []
  refine ⟨out, by rw [hc, ho], ?_, fun p0 sp => ?_⟩
  · obtain ⟨q, h1, _⟩ := hrt {} []
    rintro rfl
    obtain ⟨out', q, h1, h2, _⟩ := hrt {} []
    rw [ho] at h1; cases h1
    cases h2
  · obtain ⟨out', q, h1, h2, h3, _⟩ := hrt p0 sp
    rw [ho] at h1; cases h1
    refine ⟨q, h2, ?_⟩
    obtain ⟨d, d', body, g1, g2, g3, _, g5⟩ := h3
    refine ⟨by rw [g5, ← hp]; rfl, by rw [g5, ← hp]; rfl, ?_⟩
    rw [hd] at g1; cases g1
    rw [g2]
    cases d' with
    | sds s => cases g3
    | resp r => rw [respSection_same env pid code st recs (by omega) r g3]

theorem acceptance_eq (pid : UInt16) (recs : List ServiceDataRecord) :
    acceptance pid recs = respSection pid 0 ((recs.getLast?.map (·.sourceServiceType)).getD 0) recs := rfl

/-! ## The authentication result -/

set_option maxRecDepth 20000 in
theorem resultBody_crc : crc16 resultBody = 43 + 256 * 43 := by with_unfolding_all rfl

/-- The records in that packet. -/
def resultRecs : List ServiceDataRecord :=
  [ackRecord 4 1 [{ subrecordType := 9, subrecordLength := 1, subrecordData := some (.result { resultCode := 0 }) }]]

theorem resultRecs_encode (env : Env) : ServiceDataSet.encode env resultRecs = .ok resultBody := by with_unfolding_all rfl

theorem resultSub_length (env : Env) :
    RecordDataSet.length env [{ subrecordType := 9, subrecordLength := 1, subrecordData := some (.result { resultCode := 0 }) }] = .ok 4 := by
  with_unfolding_all rfl

theorem resultHead_eq (pid : UInt16) : (encoded (ackPackage 11 pid (.sds resultRecs)) resultBody).headBytes 0 = resultHead pid := by
  have h1 : (encoded (ackPackage 11 pid (.sds resultRecs)) resultBody).route = go!"0" := rfl
  have h2 : (encoded (ackPackage 11 pid (.sds resultRecs)) resultBody).headerLength = 11 := by with_unfolding_all rfl
  have h3 : (encoded (ackPackage 11 pid (.sds resultRecs)) resultBody).frameDataLength = 11 := by with_unfolding_all rfl
  unfold Package.headBytes
  rw [h1, h2, h3]
  rfl

theorem resultRecs_length (env : Env) : ServiceDataSet.length env resultRecs = .ok 11 := by
  unfold ServiceDataSet.length
  rw [resultRecs_encode]
  rfl

theorem createSrResultCode_pkg (env : Env) (pid : UInt16) :
    createSrResultCode env pid 0 = ((ackPackage 11 pid (.sds resultRecs)).encode env none).2 := by
  have e : ∀ (a : Except Fault UInt16) (f : UInt16 → Except Fault UInt16) (g : UInt16 → UInt16 → Except Fault Bytes) (x y : UInt16),
      a = .ok x → f x = .ok y → (do let rl ← a; let fdl ← f rl; g rl fdl) = g x y := by
    intro a f g x y h1 h2
    rw [h1, ok_bind, h2, ok_bind]
  exact e _ (fun rl => ServiceDataSet.length env [ackRecord rl 1 _]) _ 4 11 (resultSub_length env) (resultRecs_length env)

theorem zeroFlags : parseFlags (go!"00" ++ go!"0" ++ go!"00" ++ go!"0" ++ go!"00") = .ok 0 := by with_unfolding_all rfl

theorem resultPkg_headWF (pid : UInt16) : (ackPackage 11 pid (.sds resultRecs)).HeadWF := by
  exact (by decide : (ackPackage 0 0 (.sds [])).HeadWF)

theorem resultPkg_body (env : Env) (pid : UInt16) : (ackPackage 11 pid (.sds resultRecs)).Body env none resultBody :=
  ⟨resultBody, resultRecs_encode env, .inl ⟨rfl, rfl⟩⟩

theorem createSrResultCode_eq (env : Env) (pid : UInt16) : createSrResultCode env pid 0 = .ok (resultPacket pid) := by
  rw [createSrResultCode_pkg]
  obtain ⟨fl, head, e1, e2, e3, e4⟩ := encode_shape env none (resultPkg_headWF pid) (resultPkg_body env pid) (by decide)
  have hfl : fl = 0 := by
    have e1' : parseFlags (go!"00" ++ go!"0" ++ go!"00" ++ go!"0" ++ go!"00") = .ok fl := e1
    rw [zeroFlags] at e1'; injection e1' with e; exact e.symm
  subst hfl
  rw [resultHead_eq] at e2
  rw [e4]
  simp only
  rw [e2, if_neg (by decide), resultBody_crc, show put16 (43 + 256 * 43) = [43, 43] by decide]
  unfold resultPacket
  rw [List.append_assoc, List.append_assoc, List.append_assoc]

theorem resultFrame_facts (lo hi x : UInt8) :
    let f : Bytes := [1, 0, 0, 11, 0, 11, 0, lo, hi, 0, x] ++ resultBody ++ [43, 43]
    Frame.hcsPos f = 10 ∧ Frame.hl f = 11 ∧ Frame.fdl f = 11 ∧ Frame.pt f = 0 ∧ Frame.body f = resultBody ∧
    f.take 10 = [1, 0, 0, 11, 0, 11, 0, lo, hi, 0] ∧ f.length = 24 ∧ Frame.rest f = resultBody ++ [43, 43] ∧
    byteAt f 10 = x.toNat ∧ ¬ Frame.Encrypted f :=
  ⟨by with_unfolding_all rfl, by with_unfolding_all rfl, by with_unfolding_all rfl, by with_unfolding_all rfl, by with_unfolding_all rfl, by with_unfolding_all rfl, by with_unfolding_all rfl, by with_unfolding_all rfl, by with_unfolding_all rfl, fun h => h (by with_unfolding_all rfl)⟩

theorem resultPacket_facts (pid : UInt16) :
    Frame.hcsPos (resultPacket pid) = 10 ∧ Frame.hl (resultPacket pid) = 11 ∧ Frame.fdl (resultPacket pid) = 11 ∧
    Frame.pt (resultPacket pid) = 0 ∧ Frame.body (resultPacket pid) = resultBody ∧
    (resultPacket pid).take 10 = resultHead pid ∧ (resultPacket pid).length = 24 ∧ Frame.rest (resultPacket pid) = resultBody ++ [43, 43] ∧
    byteAt (resultPacket pid) 10 = (crc8 (resultHead pid)).toNat ∧ ¬ Frame.Encrypted (resultPacket pid) :=
  resultFrame_facts (UInt8.ofNat ((pid + 1).toNat % 256)) (UInt8.ofNat ((pid + 1).toNat / 256)) (crc8 (resultHead pid))

set_option maxRecDepth 20000 in
theorem resultBody_resp (env : Env) : PtResponse.decode env {} resultBody = .error .eof := by with_unfolding_all rfl

set_option maxRecDepth 20000 in
theorem resultBody_sds (env : Env) : ServiceDataSet.decode env [] resultBody = .ok resultRecs := by with_unfolding_all rfl

theorem resultPacket_decode (env : Env) (key p0) (pid : UInt16) (sp : Bytes) :
    ∃ q e, Package.decode env key p0 ⟨resultPacket pid, sp⟩ = .ret q 129 (some e) := by
  obtain ⟨h1, h2, h3, h4, h5, h6, h7, h8, h9, h10⟩ := resultPacket_facts pid
  obtain ⟨d1, d2⟩ := decode_frame env key p0 ⟨resultPacket pid, sp⟩
  have hcon : Frame.content env key (resultPacket pid) = .error .eof := by
    unfold Frame.content Frame.clear
    rw [if_neg h10, h5]
    simp only [ok_bind, h4]
    rw [if_neg (by decide), resultBody_resp]
    rfl
  have ho : Frame.outcome env key ⟨resultPacket pid, sp⟩ = .code 129 := by
    have he : Frame.headEnd (resultPacket pid) = 10 := by unfold Frame.headEnd; rw [h2]; rfl
    unfold Frame.outcome
    simp only [h1, h4, h7, h8, h9, hcon, he]
    rw [if_neg (by decide), if_neg (by simp [Slice.all, h7]; omega)]
    have : (Slice.all ⟨resultPacket pid, sp⟩).take 10 = resultHead pid := by
      unfold Slice.all
      rw [List.take_append_of_le_length (by rw [h7]; decide), h6]
    rw [this, if_neg (by simp), if_neg (by decide), if_neg (by simp)]
    rfl
  rw [ho] at d1
  cases hd : Package.decode env key p0 ⟨resultPacket pid, sp⟩ with
  | panic => rw [hd] at d1; cases d1
  | ret q c e =>
    rw [hd] at d1
    cases d1
    cases e with
    | none => exact absurd ((d2 _ _ _ hd).1.mp rfl) (by decide)
    | some e => exact ⟨q, e, rfl⟩

end Egts
