import Verif.Model.PkgJson
import Verif.Proofs.MarshalVal

/-! # Reading packages back out of their JSON texts: subrecords -/

namespace Egts
open Json

theorem readStr_eq {v : Value} {key s : Bytes} (h : v.get key = some (.str s)) : readStr v key = some s := by
  unfold readStr; rw [h]; rfl

theorem readInt_eq {v : Value} {key : Bytes} {i : Int} (h : v.get key = some (.num (i : ℚ))) : readInt v key = some i := by
  unfold readInt; rw [h, Option.bind_some, asInt_num]

theorem readI8_eq {v : Value} {key : Bytes} (x : UInt8)
    (h : v.get key = some (.num ((if x.toNat < 128 then (x.toNat : Int) else (x.toNat : Int) - 256 : Int) : ℚ))) : readI8 v key = some x := by
  have hx : x.toNat < 256 := by have := x.toNat_lt; norm_num at this; exact this
  unfold readI8
  rw [readInt_eq h]
  simp only [Option.bind_eq_bind, Option.bind_some, Option.pure_def]
  rw [if_pos (by split <;> omega)]
  have key : ∀ n : Fin 256, UInt8.ofInt (if n.1 < 128 then (n.1 : Int) else (n.1 : Int) - 256) = UInt8.ofNat n := by decide +kernel
  have := key ⟨x.toNat, hx⟩
  simp only [UInt8.ofNat_toNat] at this
  rw [this]

theorem readF64_eq {v : Value} {key : Bytes} {x : F64} (hd : IsDouble x) (h : v.get key = some (textValue (jsonFloat x))) :
    readF64 v key = some x := by
  obtain ⟨q, h1, h2⟩ := reads_jsonFloat hd
  unfold readF64
  rw [h, textValue_of h2 (by simp), Option.bind_some]
  simp only [Value.asFloat, h1]

theorem readTime_eq {v : Value} {key : Bytes} {t : GoTime} (ht : TimeOk t) (h : v.get key = some (textValue ((marshalTime t).getD []))) :
    readTime v key = some t := by
  have hs := (marshalTime_isSome t).mpr ht
  obtain ⟨b, hb⟩ := Option.isSome_iff_exists.mp hs
  obtain ⟨s, h1, h2, h3⟩ := marshalTime_spec hb
  have h4 := reads_plain (fun c hc => (h3 c hc).1)
  rw [← h1] at h4
  rw [hb, Option.getD_some, textValue_of h4 (by simp)] at h
  unfold readTime
  rw [readStr_eq h, Option.bind_some, h2]

theorem asBytes_str (b : Bytes) : (Value.str (base64 b)).asBytes = some b := readBase64_base64 b

theorem readBytes_eq {v : Value} {key : Bytes} {b : Bytes} (h : v.get key = some (GoVal.value (if b = [] then .null else .bytes b))) :
    readBytes v key = some b := by
  unfold readBytes
  rw [h, Option.bind_some]
  split
  · rename_i h; subst h; rfl
  · exact asBytes_str b

theorem readSrPosData_eq (d : SrPosData) (hnavigationTime : TimeOk d.navigationTime) (hlatitude : IsDouble d.latitude) (hlongitude : IsDouble d.longitude) : readSrPosData d.goVal.value = some (d.mapStrings repair) := by
  have hv : d.goVal.value = .obj [(go!"NTM", textValue ((marshalTime d.navigationTime).getD [])), (go!"LAT", textValue (jsonFloat d.latitude)),
      (go!"LONG", textValue (jsonFloat d.longitude)), (go!"ALTE", .str (repair d.alte)), (go!"LOHS", .str (repair d.lohs)),
      (go!"LAHS", .str (repair d.lahs)), (go!"MV", .str (repair d.mv)), (go!"BB", .str (repair d.bb)),
      (go!"CS", .str (repair d.cs)), (go!"FIX", .str (repair d.fix)), (go!"VLD", .str (repair d.vld)),
      (go!"DIRH", .num ((d.directionHighestBit.toNat : ℕ) : ℚ)), (go!"ALTS", .num ((d.altitudeSign.toNat : ℕ) : ℚ)),
      (go!"SPD", .num ((d.speed.toNat : ℕ) : ℚ)), (go!"DIR", .num ((d.direction.toNat : ℕ) : ℚ)),
      (go!"ODM", .num ((d.odometer.toNat : ℕ) : ℚ)), (go!"DIN", .num ((d.digitalInputs.toNat : ℕ) : ℚ)),
      (go!"SRC", .num ((d.source.toNat : ℕ) : ℚ)), (go!"ALT", .num ((d.altitude.toNat : ℕ) : ℚ)),
      (go!"SRCD", .num ((d.sourceData : Int) : ℚ))] := by
    simp only [SrPosData.goVal, GoVal.value, GoVal.valueFields]
  have e0 : readTime d.goVal.value (go!"NTM") = some (d.navigationTime) := readTime_eq hnavigationTime (by rw [hv]; rfl)
  have e1 : readF64 d.goVal.value (go!"LAT") = some (d.latitude) := readF64_eq hlatitude (by rw [hv]; rfl)
  have e2 : readF64 d.goVal.value (go!"LONG") = some (d.longitude) := readF64_eq hlongitude (by rw [hv]; rfl)
  have e3 : readStr d.goVal.value (go!"ALTE") = some (repair d.alte) := readStr_eq (by rw [hv]; rfl)
  have e4 : readStr d.goVal.value (go!"LOHS") = some (repair d.lohs) := readStr_eq (by rw [hv]; rfl)
  have e5 : readStr d.goVal.value (go!"LAHS") = some (repair d.lahs) := readStr_eq (by rw [hv]; rfl)
  have e6 : readStr d.goVal.value (go!"MV") = some (repair d.mv) := readStr_eq (by rw [hv]; rfl)
  have e7 : readStr d.goVal.value (go!"BB") = some (repair d.bb) := readStr_eq (by rw [hv]; rfl)
  have e8 : readStr d.goVal.value (go!"CS") = some (repair d.cs) := readStr_eq (by rw [hv]; rfl)
  have e9 : readStr d.goVal.value (go!"FIX") = some (repair d.fix) := readStr_eq (by rw [hv]; rfl)
  have e10 : readStr d.goVal.value (go!"VLD") = some (repair d.vld) := readStr_eq (by rw [hv]; rfl)
  have e11 : readU8 d.goVal.value (go!"DIRH") = some (d.directionHighestBit) := readU8_eq _ (by rw [hv]; rfl)
  have e12 : readU8 d.goVal.value (go!"ALTS") = some (d.altitudeSign) := readU8_eq _ (by rw [hv]; rfl)
  have e13 : readU16 d.goVal.value (go!"SPD") = some (d.speed) := readU16_eq _ (by rw [hv]; rfl)
  have e14 : readU8 d.goVal.value (go!"DIR") = some (d.direction) := readU8_eq _ (by rw [hv]; rfl)
  have e15 : readU32 d.goVal.value (go!"ODM") = some (d.odometer) := readU32_eq _ (by rw [hv]; rfl)
  have e16 : readU8 d.goVal.value (go!"DIN") = some (d.digitalInputs) := readU8_eq _ (by rw [hv]; rfl)
  have e17 : readU8 d.goVal.value (go!"SRC") = some (d.source) := readU8_eq _ (by rw [hv]; rfl)
  have e18 : readU32 d.goVal.value (go!"ALT") = some (d.altitude) := readU32_eq _ (by rw [hv]; rfl)
  have e19 : readInt d.goVal.value (go!"SRCD") = some (d.sourceData) := readInt_eq (by rw [hv]; rfl)
  unfold readSrPosData
  simp only [e0, e1, e2, e3, e4, e5, e6, e7, e8, e9, e10, e11, e12, e13, e14, e15, e16, e17, e18, e19, Option.bind_eq_bind,
    Option.bind_some, Option.pure_def]
  rfl

theorem readSrTermIdentity_eq (d : SrTermIdentity)  : readSrTermIdentity d.goVal.value = some (d.mapStrings repair) := by
  have hv : d.goVal.value = .obj [(go!"TID", .num ((d.terminalIdentifier.toNat : ℕ) : ℚ)), (go!"MNE", .str (repair d.mne)), (go!"BSE", .str (repair d.bse)),
      (go!"NIDE", .str (repair d.nide)), (go!"SSRA", .str (repair d.ssra)), (go!"LNGCE", .str (repair d.lngce)),
      (go!"IMSIE", .str (repair d.imsie)), (go!"IMEIE", .str (repair d.imeie)), (go!"HDIDE", .str (repair d.hdide)),
      (go!"HDID", .num ((d.homeDispatcherIdentifier.toNat : ℕ) : ℚ)), (go!"IMEI", .str (repair d.imei)),
      (go!"IMSI", .str (repair d.imsi)), (go!"LNGC", .str (repair d.languageCode)),
      (go!"NID", GoVal.value (if d.networkIdentifier = [] then .null else .bytes d.networkIdentifier)),
      (go!"BS", .num ((d.bufferSize.toNat : ℕ) : ℚ)), (go!"MSISDN", .str (repair d.mobileNumber))] := by
    simp only [SrTermIdentity.goVal, GoVal.value, GoVal.valueFields]
  have e0 : readU32 d.goVal.value (go!"TID") = some (d.terminalIdentifier) := readU32_eq _ (by rw [hv]; rfl)
  have e1 : readStr d.goVal.value (go!"MNE") = some (repair d.mne) := readStr_eq (by rw [hv]; rfl)
  have e2 : readStr d.goVal.value (go!"BSE") = some (repair d.bse) := readStr_eq (by rw [hv]; rfl)
  have e3 : readStr d.goVal.value (go!"NIDE") = some (repair d.nide) := readStr_eq (by rw [hv]; rfl)
  have e4 : readStr d.goVal.value (go!"SSRA") = some (repair d.ssra) := readStr_eq (by rw [hv]; rfl)
  have e5 : readStr d.goVal.value (go!"LNGCE") = some (repair d.lngce) := readStr_eq (by rw [hv]; rfl)
  have e6 : readStr d.goVal.value (go!"IMSIE") = some (repair d.imsie) := readStr_eq (by rw [hv]; rfl)
  have e7 : readStr d.goVal.value (go!"IMEIE") = some (repair d.imeie) := readStr_eq (by rw [hv]; rfl)
  have e8 : readStr d.goVal.value (go!"HDIDE") = some (repair d.hdide) := readStr_eq (by rw [hv]; rfl)
  have e9 : readU16 d.goVal.value (go!"HDID") = some (d.homeDispatcherIdentifier) := readU16_eq _ (by rw [hv]; rfl)
  have e10 : readStr d.goVal.value (go!"IMEI") = some (repair d.imei) := readStr_eq (by rw [hv]; rfl)
  have e11 : readStr d.goVal.value (go!"IMSI") = some (repair d.imsi) := readStr_eq (by rw [hv]; rfl)
  have e12 : readStr d.goVal.value (go!"LNGC") = some (repair d.languageCode) := readStr_eq (by rw [hv]; rfl)
  have e13 : readBytes d.goVal.value (go!"NID") = some (d.networkIdentifier) := readBytes_eq (by rw [hv]; rfl)
  have e14 : readU16 d.goVal.value (go!"BS") = some (d.bufferSize) := readU16_eq _ (by rw [hv]; rfl)
  have e15 : readStr d.goVal.value (go!"MSISDN") = some (repair d.mobileNumber) := readStr_eq (by rw [hv]; rfl)
  unfold readSrTermIdentity
  simp only [e0, e1, e2, e3, e4, e5, e6, e7, e8, e9, e10, e11, e12, e13, e14, e15, Option.bind_eq_bind, Option.bind_some, Option.pure_def]
  rfl

theorem readSrModuleData_eq (d : SrModuleData)  : readSrModuleData d.goVal.value = some (d.mapStrings repair) := by
  have hv : d.goVal.value = .obj [(go!"MT", .num ((if d.moduleType.toNat < 128 then (d.moduleType.toNat : Int) else (d.moduleType.toNat : Int) - 256 : Int) : ℚ)),
      (go!"VID", .num ((d.vendorID.toNat : ℕ) : ℚ)), (go!"FWV", .num ((d.firmwareVersion.toNat : ℕ) : ℚ)),
      (go!"SWV", .num ((d.softwareVersion.toNat : ℕ) : ℚ)), (go!"MD", .num ((d.modification.toNat : ℕ) : ℚ)),
      (go!"ST", .num ((d.state.toNat : ℕ) : ℚ)), (go!"SRN", .str (repair d.serialNumber)),
      (go!"DSCR", .str (repair d.description))] := by
    simp only [SrModuleData.goVal, GoVal.value, GoVal.valueFields]
  have e0 : readI8 d.goVal.value (go!"MT") = some (d.moduleType) := readI8_eq _ (by rw [hv]; rfl)
  have e1 : readU32 d.goVal.value (go!"VID") = some (d.vendorID) := readU32_eq _ (by rw [hv]; rfl)
  have e2 : readU16 d.goVal.value (go!"FWV") = some (d.firmwareVersion) := readU16_eq _ (by rw [hv]; rfl)
  have e3 : readU16 d.goVal.value (go!"SWV") = some (d.softwareVersion) := readU16_eq _ (by rw [hv]; rfl)
  have e4 : readU8 d.goVal.value (go!"MD") = some (d.modification) := readU8_eq _ (by rw [hv]; rfl)
  have e5 : readU8 d.goVal.value (go!"ST") = some (d.state) := readU8_eq _ (by rw [hv]; rfl)
  have e6 : readStr d.goVal.value (go!"SRN") = some (repair d.serialNumber) := readStr_eq (by rw [hv]; rfl)
  have e7 : readStr d.goVal.value (go!"DSCR") = some (repair d.description) := readStr_eq (by rw [hv]; rfl)
  unfold readSrModuleData
  simp only [e0, e1, e2, e3, e4, e5, e6, e7, Option.bind_eq_bind, Option.bind_some, Option.pure_def]
  rfl

theorem readSrResponse_eq (d : SrResponse)  : readSrResponse d.goVal.value = some d := by
  have hv : d.goVal.value = .obj [(go!"CRN", .num ((d.confirmedRecordNumber.toNat : ℕ) : ℚ)), (go!"RST", .num ((d.recordStatus.toNat : ℕ) : ℚ))] := by
    simp only [SrResponse.goVal, GoVal.value, GoVal.valueFields]
  have e0 : readU16 d.goVal.value (go!"CRN") = some (d.confirmedRecordNumber) := readU16_eq _ (by rw [hv]; rfl)
  have e1 : readU8 d.goVal.value (go!"RST") = some (d.recordStatus) := readU8_eq _ (by rw [hv]; rfl)
  unfold readSrResponse
  simp only [e0, e1, Option.bind_eq_bind, Option.bind_some, Option.pure_def]

theorem readSrResultCode_eq (d : SrResultCode)  : readSrResultCode d.goVal.value = some d := by
  have hv : d.goVal.value = .obj [(go!"RCD", .num ((d.resultCode.toNat : ℕ) : ℚ))] := by
    simp only [SrResultCode.goVal, GoVal.value, GoVal.valueFields]
  have e0 : readU8 d.goVal.value (go!"RCD") = some (d.resultCode) := readU8_eq _ (by rw [hv]; rfl)
  unfold readSrResultCode
  simp only [e0, Option.bind_eq_bind, Option.bind_some, Option.pure_def]

theorem readSrExtPosData_eq (d : SrExtPosData)  : readSrExtPosData d.goVal.value = some (d.mapStrings repair) := by
  have hv : d.goVal.value = .obj [(go!"NSFE", .str (repair d.nsfe)), (go!"SFE", .str (repair d.sfe)), (go!"PFE", .str (repair d.pfe)),
      (go!"HFE", .str (repair d.hfe)), (go!"VFE", .str (repair d.vfe)), (go!"VDOP", .num ((d.vdop.toNat : ℕ) : ℚ)),
      (go!"HDOP", .num ((d.hdop.toNat : ℕ) : ℚ)), (go!"PDOP", .num ((d.pdop.toNat : ℕ) : ℚ)),
      (go!"SAT", .num ((d.satellites.toNat : ℕ) : ℚ)), (go!"NS", .num ((d.navigationSystem.toNat : ℕ) : ℚ))] := by
    simp only [SrExtPosData.goVal, GoVal.value, GoVal.valueFields]
  have e0 : readStr d.goVal.value (go!"NSFE") = some (repair d.nsfe) := readStr_eq (by rw [hv]; rfl)
  have e1 : readStr d.goVal.value (go!"SFE") = some (repair d.sfe) := readStr_eq (by rw [hv]; rfl)
  have e2 : readStr d.goVal.value (go!"PFE") = some (repair d.pfe) := readStr_eq (by rw [hv]; rfl)
  have e3 : readStr d.goVal.value (go!"HFE") = some (repair d.hfe) := readStr_eq (by rw [hv]; rfl)
  have e4 : readStr d.goVal.value (go!"VFE") = some (repair d.vfe) := readStr_eq (by rw [hv]; rfl)
  have e5 : readU16 d.goVal.value (go!"VDOP") = some (d.vdop) := readU16_eq _ (by rw [hv]; rfl)
  have e6 : readU16 d.goVal.value (go!"HDOP") = some (d.hdop) := readU16_eq _ (by rw [hv]; rfl)
  have e7 : readU16 d.goVal.value (go!"PDOP") = some (d.pdop) := readU16_eq _ (by rw [hv]; rfl)
  have e8 : readU8 d.goVal.value (go!"SAT") = some (d.satellites) := readU8_eq _ (by rw [hv]; rfl)
  have e9 : readU16 d.goVal.value (go!"NS") = some (d.navigationSystem) := readU16_eq _ (by rw [hv]; rfl)
  unfold readSrExtPosData
  simp only [e0, e1, e2, e3, e4, e5, e6, e7, e8, e9, Option.bind_eq_bind, Option.bind_some, Option.pure_def]
  rfl

theorem readSrAdSensorsData_eq (d : SrAdSensorsData)  : readSrAdSensorsData d.goVal.value = some (d.mapStrings repair) := by
  have hv : d.goVal.value = .obj [(go!"DIOE1", .str (repair d.dioe1)), (go!"DIOE2", .str (repair d.dioe2)), (go!"DIOE3", .str (repair d.dioe3)),
      (go!"DIOE4", .str (repair d.dioe4)), (go!"DIOE5", .str (repair d.dioe5)), (go!"DIOE6", .str (repair d.dioe6)),
      (go!"DIOE7", .str (repair d.dioe7)), (go!"DIOE8", .str (repair d.dioe8)),
      (go!"DOUT", .num ((d.digitalOutputs.toNat : ℕ) : ℚ)), (go!"ASFE1", .str (repair d.asfe1)),
      (go!"ASFE2", .str (repair d.asfe2)), (go!"ASFE3", .str (repair d.asfe3)), (go!"ASFE4", .str (repair d.asfe4)),
      (go!"ASFE5", .str (repair d.asfe5)), (go!"ASFE6", .str (repair d.asfe6)), (go!"ASFE7", .str (repair d.asfe7)),
      (go!"ASFE8", .str (repair d.asfe8)), (go!"ADIO1", .num ((d.adio1.toNat : ℕ) : ℚ)),
      (go!"ADIO2", .num ((d.adio2.toNat : ℕ) : ℚ)), (go!"ADIO3", .num ((d.adio3.toNat : ℕ) : ℚ)),
      (go!"ADIO4", .num ((d.adio4.toNat : ℕ) : ℚ)), (go!"ADIO5", .num ((d.adio5.toNat : ℕ) : ℚ)),
      (go!"ADIO6", .num ((d.adio6.toNat : ℕ) : ℚ)), (go!"ADIO7", .num ((d.adio7.toNat : ℕ) : ℚ)),
      (go!"ADIO8", .num ((d.adio8.toNat : ℕ) : ℚ)), (go!"ANS1", .num ((d.ans1.toNat : ℕ) : ℚ)),
      (go!"ANS2", .num ((d.ans2.toNat : ℕ) : ℚ)), (go!"ANS3", .num ((d.ans3.toNat : ℕ) : ℚ)),
      (go!"ANS4", .num ((d.ans4.toNat : ℕ) : ℚ)), (go!"ANS5", .num ((d.ans5.toNat : ℕ) : ℚ)),
      (go!"ANS6", .num ((d.ans6.toNat : ℕ) : ℚ)), (go!"ANS7", .num ((d.ans7.toNat : ℕ) : ℚ)),
      (go!"ANS8", .num ((d.ans8.toNat : ℕ) : ℚ))] := by
    simp only [SrAdSensorsData.goVal, GoVal.value, GoVal.valueFields]
  have e0 : readStr d.goVal.value (go!"DIOE1") = some (repair d.dioe1) := readStr_eq (by rw [hv]; rfl)
  have e1 : readStr d.goVal.value (go!"DIOE2") = some (repair d.dioe2) := readStr_eq (by rw [hv]; rfl)
  have e2 : readStr d.goVal.value (go!"DIOE3") = some (repair d.dioe3) := readStr_eq (by rw [hv]; rfl)
  have e3 : readStr d.goVal.value (go!"DIOE4") = some (repair d.dioe4) := readStr_eq (by rw [hv]; rfl)
  have e4 : readStr d.goVal.value (go!"DIOE5") = some (repair d.dioe5) := readStr_eq (by rw [hv]; rfl)
  have e5 : readStr d.goVal.value (go!"DIOE6") = some (repair d.dioe6) := readStr_eq (by rw [hv]; rfl)
  have e6 : readStr d.goVal.value (go!"DIOE7") = some (repair d.dioe7) := readStr_eq (by rw [hv]; rfl)
  have e7 : readStr d.goVal.value (go!"DIOE8") = some (repair d.dioe8) := readStr_eq (by rw [hv]; rfl)
  have e8 : readU8 d.goVal.value (go!"DOUT") = some (d.digitalOutputs) := readU8_eq _ (by rw [hv]; rfl)
  have e9 : readStr d.goVal.value (go!"ASFE1") = some (repair d.asfe1) := readStr_eq (by rw [hv]; rfl)
  have e10 : readStr d.goVal.value (go!"ASFE2") = some (repair d.asfe2) := readStr_eq (by rw [hv]; rfl)
  have e11 : readStr d.goVal.value (go!"ASFE3") = some (repair d.asfe3) := readStr_eq (by rw [hv]; rfl)
  have e12 : readStr d.goVal.value (go!"ASFE4") = some (repair d.asfe4) := readStr_eq (by rw [hv]; rfl)
  have e13 : readStr d.goVal.value (go!"ASFE5") = some (repair d.asfe5) := readStr_eq (by rw [hv]; rfl)
  have e14 : readStr d.goVal.value (go!"ASFE6") = some (repair d.asfe6) := readStr_eq (by rw [hv]; rfl)
  have e15 : readStr d.goVal.value (go!"ASFE7") = some (repair d.asfe7) := readStr_eq (by rw [hv]; rfl)
  have e16 : readStr d.goVal.value (go!"ASFE8") = some (repair d.asfe8) := readStr_eq (by rw [hv]; rfl)
  have e17 : readU8 d.goVal.value (go!"ADIO1") = some (d.adio1) := readU8_eq _ (by rw [hv]; rfl)
  have e18 : readU8 d.goVal.value (go!"ADIO2") = some (d.adio2) := readU8_eq _ (by rw [hv]; rfl)
  have e19 : readU8 d.goVal.value (go!"ADIO3") = some (d.adio3) := readU8_eq _ (by rw [hv]; rfl)
  have e20 : readU8 d.goVal.value (go!"ADIO4") = some (d.adio4) := readU8_eq _ (by rw [hv]; rfl)
  have e21 : readU8 d.goVal.value (go!"ADIO5") = some (d.adio5) := readU8_eq _ (by rw [hv]; rfl)
  have e22 : readU8 d.goVal.value (go!"ADIO6") = some (d.adio6) := readU8_eq _ (by rw [hv]; rfl)
  have e23 : readU8 d.goVal.value (go!"ADIO7") = some (d.adio7) := readU8_eq _ (by rw [hv]; rfl)
  have e24 : readU8 d.goVal.value (go!"ADIO8") = some (d.adio8) := readU8_eq _ (by rw [hv]; rfl)
  have e25 : readU32 d.goVal.value (go!"ANS1") = some (d.ans1) := readU32_eq _ (by rw [hv]; rfl)
  have e26 : readU32 d.goVal.value (go!"ANS2") = some (d.ans2) := readU32_eq _ (by rw [hv]; rfl)
  have e27 : readU32 d.goVal.value (go!"ANS3") = some (d.ans3) := readU32_eq _ (by rw [hv]; rfl)
  have e28 : readU32 d.goVal.value (go!"ANS4") = some (d.ans4) := readU32_eq _ (by rw [hv]; rfl)
  have e29 : readU32 d.goVal.value (go!"ANS5") = some (d.ans5) := readU32_eq _ (by rw [hv]; rfl)
  have e30 : readU32 d.goVal.value (go!"ANS6") = some (d.ans6) := readU32_eq _ (by rw [hv]; rfl)
  have e31 : readU32 d.goVal.value (go!"ANS7") = some (d.ans7) := readU32_eq _ (by rw [hv]; rfl)
  have e32 : readU32 d.goVal.value (go!"ANS8") = some (d.ans8) := readU32_eq _ (by rw [hv]; rfl)
  unfold readSrAdSensorsData
  simp only [e0, e1, e2, e3, e4, e5, e6, e7, e8, e9, e10, e11, e12, e13, e14, e15, e16, e17, e18, e19, e20, e21, e22, e23, e24, e25, e26,
    e27, e28, e29, e30, e31, e32, Option.bind_eq_bind, Option.bind_some, Option.pure_def]
  rfl

theorem readSrStateData_eq (d : SrStateData)  : readSrStateData d.goVal.value = some (d.mapStrings repair) := by
  have hv : d.goVal.value = .obj [(go!"ST", .num ((d.state.toNat : ℕ) : ℚ)), (go!"MPSV", .num ((d.mainPowerSourceVoltage.toNat : ℕ) : ℚ)),
      (go!"BBV", .num ((d.backUpBatteryVoltage.toNat : ℕ) : ℚ)), (go!"IBV", .num ((d.internalBatteryVoltage.toNat : ℕ) : ℚ)),
      (go!"NMS", .str (repair d.nms)), (go!"IBU", .str (repair d.ibu)), (go!"BBU", .str (repair d.bbu))] := by
    simp only [SrStateData.goVal, GoVal.value, GoVal.valueFields]
  have e0 : readU8 d.goVal.value (go!"ST") = some (d.state) := readU8_eq _ (by rw [hv]; rfl)
  have e1 : readU8 d.goVal.value (go!"MPSV") = some (d.mainPowerSourceVoltage) := readU8_eq _ (by rw [hv]; rfl)
  have e2 : readU8 d.goVal.value (go!"BBV") = some (d.backUpBatteryVoltage) := readU8_eq _ (by rw [hv]; rfl)
  have e3 : readU8 d.goVal.value (go!"IBV") = some (d.internalBatteryVoltage) := readU8_eq _ (by rw [hv]; rfl)
  have e4 : readStr d.goVal.value (go!"NMS") = some (repair d.nms) := readStr_eq (by rw [hv]; rfl)
  have e5 : readStr d.goVal.value (go!"IBU") = some (repair d.ibu) := readStr_eq (by rw [hv]; rfl)
  have e6 : readStr d.goVal.value (go!"BBU") = some (repair d.bbu) := readStr_eq (by rw [hv]; rfl)
  unfold readSrStateData
  simp only [e0, e1, e2, e3, e4, e5, e6, Option.bind_eq_bind, Option.bind_some, Option.pure_def]
  rfl

theorem readSrLiquidLevelSensor_eq (d : SrLiquidLevelSensor)  : readSrLiquidLevelSensor d.goVal.value = some (d.mapStrings repair) := by
  have hv : d.goVal.value = .obj [(go!"LLSEF", .str (repair d.errorFlag)), (go!"LLSVU", .str (repair d.valueUnit)), (go!"RDF", .str (repair d.rawDataFlag)),
      (go!"LLSN", .num ((d.sensorNumber.toNat : ℕ) : ℚ)), (go!"MADDR", .num ((d.moduleAddress.toNat : ℕ) : ℚ)),
      (go!"LLSD", .num ((d.sensorData.toNat : ℕ) : ℚ))] := by
    simp only [SrLiquidLevelSensor.goVal, GoVal.value, GoVal.valueFields]
  have e0 : readStr d.goVal.value (go!"LLSEF") = some (repair d.errorFlag) := readStr_eq (by rw [hv]; rfl)
  have e1 : readStr d.goVal.value (go!"LLSVU") = some (repair d.valueUnit) := readStr_eq (by rw [hv]; rfl)
  have e2 : readStr d.goVal.value (go!"RDF") = some (repair d.rawDataFlag) := readStr_eq (by rw [hv]; rfl)
  have e3 : readU8 d.goVal.value (go!"LLSN") = some (d.sensorNumber) := readU8_eq _ (by rw [hv]; rfl)
  have e4 : readU16 d.goVal.value (go!"MADDR") = some (d.moduleAddress) := readU16_eq _ (by rw [hv]; rfl)
  have e5 : readU32 d.goVal.value (go!"LLSD") = some (d.sensorData) := readU32_eq _ (by rw [hv]; rfl)
  unfold readSrLiquidLevelSensor
  simp only [e0, e1, e2, e3, e4, e5, Option.bind_eq_bind, Option.bind_some, Option.pure_def]
  rfl

theorem readSrAbsCntrData_eq (d : SrAbsCntrData)  : readSrAbsCntrData d.goVal.value = some d := by
  have hv : d.goVal.value = .obj [(go!"CN", .num ((d.counterNumber.toNat : ℕ) : ℚ)), (go!"CNV", .num ((d.counterValue.toNat : ℕ) : ℚ))] := by
    simp only [SrAbsCntrData.goVal, GoVal.value, GoVal.valueFields]
  have e0 : readU8 d.goVal.value (go!"CN") = some (d.counterNumber) := readU8_eq _ (by rw [hv]; rfl)
  have e1 : readU32 d.goVal.value (go!"CNV") = some (d.counterValue) := readU32_eq _ (by rw [hv]; rfl)
  unfold readSrAbsCntrData
  simp only [e0, e1, Option.bind_eq_bind, Option.bind_some, Option.pure_def]

theorem readSrAuthInfo_eq (d : SrAuthInfo)  : readSrAuthInfo d.goVal.value = some (d.mapStrings repair) := by
  have hv : d.goVal.value = .obj [(go!"UNM", .str (repair d.userName)), (go!"UPSW", .str (repair d.userPassword)), (go!"SS", .str (repair d.serverSequence))] := by
    simp only [SrAuthInfo.goVal, GoVal.value, GoVal.valueFields]
  have e0 : readStr d.goVal.value (go!"UNM") = some (repair d.userName) := readStr_eq (by rw [hv]; rfl)
  have e1 : readStr d.goVal.value (go!"UPSW") = some (repair d.userPassword) := readStr_eq (by rw [hv]; rfl)
  have e2 : readStr d.goVal.value (go!"SS") = some (repair d.serverSequence) := readStr_eq (by rw [hv]; rfl)
  unfold readSrAuthInfo
  simp only [e0, e1, e2, Option.bind_eq_bind, Option.bind_some, Option.pure_def]
  rfl

theorem readSrCountersData_eq (d : SrCountersData)  : readSrCountersData d.goVal.value = some (d.mapStrings repair) := by
  have hv : d.goVal.value = .obj [(go!"CFE1", .str (repair d.cfe1)), (go!"CFE2", .str (repair d.cfe2)), (go!"CFE3", .str (repair d.cfe3)),
      (go!"CFE4", .str (repair d.cfe4)), (go!"CFE5", .str (repair d.cfe5)), (go!"CFE6", .str (repair d.cfe6)),
      (go!"CFE7", .str (repair d.cfe7)), (go!"CFE8", .str (repair d.cfe8)), (go!"CN1", .num ((d.cn1.toNat : ℕ) : ℚ)),
      (go!"CN2", .num ((d.cn2.toNat : ℕ) : ℚ)), (go!"CN3", .num ((d.cn3.toNat : ℕ) : ℚ)),
      (go!"CN4", .num ((d.cn4.toNat : ℕ) : ℚ)), (go!"CN5", .num ((d.cn5.toNat : ℕ) : ℚ)),
      (go!"CN6", .num ((d.cn6.toNat : ℕ) : ℚ)), (go!"CN7", .num ((d.cn7.toNat : ℕ) : ℚ)),
      (go!"CN8", .num ((d.cn8.toNat : ℕ) : ℚ))] := by
    simp only [SrCountersData.goVal, GoVal.value, GoVal.valueFields]
  have e0 : readStr d.goVal.value (go!"CFE1") = some (repair d.cfe1) := readStr_eq (by rw [hv]; rfl)
  have e1 : readStr d.goVal.value (go!"CFE2") = some (repair d.cfe2) := readStr_eq (by rw [hv]; rfl)
  have e2 : readStr d.goVal.value (go!"CFE3") = some (repair d.cfe3) := readStr_eq (by rw [hv]; rfl)
  have e3 : readStr d.goVal.value (go!"CFE4") = some (repair d.cfe4) := readStr_eq (by rw [hv]; rfl)
  have e4 : readStr d.goVal.value (go!"CFE5") = some (repair d.cfe5) := readStr_eq (by rw [hv]; rfl)
  have e5 : readStr d.goVal.value (go!"CFE6") = some (repair d.cfe6) := readStr_eq (by rw [hv]; rfl)
  have e6 : readStr d.goVal.value (go!"CFE7") = some (repair d.cfe7) := readStr_eq (by rw [hv]; rfl)
  have e7 : readStr d.goVal.value (go!"CFE8") = some (repair d.cfe8) := readStr_eq (by rw [hv]; rfl)
  have e8 : readU32 d.goVal.value (go!"CN1") = some (d.cn1) := readU32_eq _ (by rw [hv]; rfl)
  have e9 : readU32 d.goVal.value (go!"CN2") = some (d.cn2) := readU32_eq _ (by rw [hv]; rfl)
  have e10 : readU32 d.goVal.value (go!"CN3") = some (d.cn3) := readU32_eq _ (by rw [hv]; rfl)
  have e11 : readU32 d.goVal.value (go!"CN4") = some (d.cn4) := readU32_eq _ (by rw [hv]; rfl)
  have e12 : readU32 d.goVal.value (go!"CN5") = some (d.cn5) := readU32_eq _ (by rw [hv]; rfl)
  have e13 : readU32 d.goVal.value (go!"CN6") = some (d.cn6) := readU32_eq _ (by rw [hv]; rfl)
  have e14 : readU32 d.goVal.value (go!"CN7") = some (d.cn7) := readU32_eq _ (by rw [hv]; rfl)
  have e15 : readU32 d.goVal.value (go!"CN8") = some (d.cn8) := readU32_eq _ (by rw [hv]; rfl)
  unfold readSrCountersData
  simp only [e0, e1, e2, e3, e4, e5, e6, e7, e8, e9, e10, e11, e12, e13, e14, e15, Option.bind_eq_bind, Option.bind_some, Option.pure_def]
  rfl

theorem readSrAbsAnSensData_eq (d : SrAbsAnSensData)  : readSrAbsAnSensData d.goVal.value = some d := by
  have hv : d.goVal.value = .obj [(go!"SensorNumber", .num ((d.sensorNumber.toNat : ℕ) : ℚ)), (go!"Value", .num ((d.value.toNat : ℕ) : ℚ))] := by
    simp only [SrAbsAnSensData.goVal, GoVal.value, GoVal.valueFields]
  have e0 : readU8 d.goVal.value (go!"SensorNumber") = some (d.sensorNumber) := readU8_eq _ (by rw [hv]; rfl)
  have e1 : readU32 d.goVal.value (go!"Value") = some (d.value) := readU32_eq _ (by rw [hv]; rfl)
  unfold readSrAbsAnSensData
  simp only [e0, e1, Option.bind_eq_bind, Option.bind_some, Option.pure_def]

theorem readSrDispatcherIdentity_eq (d : SrDispatcherIdentity)  : readSrDispatcherIdentity d.goVal.value = some (d.mapStrings repair) := by
  have hv : d.goVal.value = .obj [(go!"DT", .num ((d.dispatcherType.toNat : ℕ) : ℚ)), (go!"DID", .num ((d.dispatcherID.toNat : ℕ) : ℚ)),
      (go!"DSCR", .str (repair d.description))] := by
    simp only [SrDispatcherIdentity.goVal, GoVal.value, GoVal.valueFields]
  have e0 : readU8 d.goVal.value (go!"DT") = some (d.dispatcherType) := readU8_eq _ (by rw [hv]; rfl)
  have e1 : readU32 d.goVal.value (go!"DID") = some (d.dispatcherID) := readU32_eq _ (by rw [hv]; rfl)
  have e2 : readStr d.goVal.value (go!"DSCR") = some (repair d.description) := readStr_eq (by rw [hv]; rfl)
  unfold readSrDispatcherIdentity
  simp only [e0, e1, e2, Option.bind_eq_bind, Option.bind_some, Option.pure_def]
  rfl

end Egts
