import Verif.Proofs.Wire

/-! # Wire layouts (C64, C65)

The library emits and understands the layouts of `Spec/Wire.lean`. `rest` is whatever follows in the subrecord. -/

namespace Egts

/-! ## C64: subrecords -/

theorem C64_response (env : Env) (d d0 : SrResponse) :
    d.encode = .ok d.wire ∧ SrResponse.decode env d0 d.wire = .ok d := by
  have h : d.encode = .ok d.wire := by rw [SrResponse.wire, leBytes2]; rfl
  obtain ⟨b, e, l, r⟩ := resp_rt env d 3
  rw [h] at e; cases e
  exact ⟨h, by rw [SrResponse.decode, l]; exact r⟩

theorem C64_result_code (d d0 : SrResultCode) (rest : Bytes) :
    d.encode = .ok d.wire ∧ SrResultCode.decode d0 (d.wire ++ rest) = .ok d := ⟨rfl, rfl⟩

theorem C64_state_data (d d0 : SrStateData) (rest : Bytes) (h : d.WF) :
    d.encode = .ok d.wire ∧ SrStateData.decode d0 (d.wire ++ rest) = .ok d := by
  obtain ⟨st, mp, bb, ib, nms, ibu, bbu⟩ := d
  obtain ⟨h1, h2, h3⟩ := h
  obtain ⟨n, rfl⟩ := isBit_iff.mp h1
  obtain ⟨i, rfl⟩ := isBit_iff.mp h2
  obtain ⟨b, rfl⟩ := isBit_iff.mp h3
  have hp := parseFlags_bits false false false false false n i b
  refine ⟨?_, ?_⟩
  · simp only [SrStateData.encode, List.append_assoc, SrStateData.wire, flagByte3]
    rw [show (go!"00000" : Bytes) = bit false ++ (bit false ++ (bit false ++ (bit false ++ bit false))) from rfl]
    simp only [List.append_assoc, hp]; rfl
  · simp [SrStateData.decode, SrStateData.wire, flagByte3]

example : SrStateData.wire
    { state := 2, mainPowerSourceVoltage := 127, backUpBatteryVoltage := 0, internalBatteryVoltage := 41,
      nms := go!"1", ibu := go!"0", bbu := go!"1" } = [2, 127, 0, 41, 5] := by decide

theorem C64_abs_counter (d d0 : SrAbsCntrData) (rest : Bytes) :
    d.encode = .ok d.wire ∧
      SrAbsCntrData.decode d0 (d.wire ++ rest) = .ok { d with counterValue := low24 d.counterValue } := by
  have h := readerRead_put24 (buf := zeros 3) rfl d.counterValue rest
  refine ⟨by simp only [SrAbsCntrData.wire, leBytes3]; rfl, ?_⟩
  simp only [SrAbsCntrData.wire, leBytes3, List.cons_append, List.nil_append, SrAbsCntrData.decode, readByte_cons, ok_bind, h,
    le32_put24, low24_eq, pure_eq_ok]

example : SrAbsCntrData.wire { counterNumber := 110, counterValue := 0x010203 } = [110, 3, 2, 1] := by decide

theorem C64_abs_analog (d d0 : SrAbsAnSensData) (rest : Bytes) :
    d.encode = .ok d.wire ∧ SrAbsAnSensData.decode d0 (d.wire ++ rest) = .ok { d with value := low24 d.value } := by
  have he : d.encode = .ok d.wire := by
    have hv := UInt32.toNat_lt d.value
    simp only [SrAbsAnSensData.encode, SrAbsAnSensData.wire, leBytes, List.cons_append, List.nil_append, Except.ok.injEq,
      List.cons.injEq, and_true, true_and]
    refine ⟨?_, ?_, ?_⟩ <;> apply UInt8.toNat_inj.mp <;>
      simp only [UInt32.toNat_toUInt8, UInt32.toNat_shiftRight, Nat.shiftRight_eq_div_pow, UInt32.reduceToNat, Nat.reduceMod,
        Nat.reducePow, UInt8.toNat_ofNat'] <;> omega
  refine ⟨he, ?_⟩
  obtain ⟨b, e, l, r⟩ := absAn_rt d d0
  rw [he] at e; cases e
  have h0 : d.wire = [d.sensorNumber, UInt8.ofNat (d.value.toNat % 256), UInt8.ofNat (d.value.toNat / 256 % 256),
    UInt8.ofNat (d.value.toNat / 256 / 256 % 256)] := rfl
  rw [h0] at r ⊢
  simp only [SrAbsAnSensData.decode, le32, List.cons_append, List.nil_append, List.length_cons] at r ⊢
  rw [if_neg (by omega)]
  simpa using r

theorem C64_liquid_level (d d0 : SrLiquidLevelSensor) (rest : Bytes) (h : d.WF) :
    d.encode = .ok d.wire ∧ SrLiquidLevelSensor.decode d0 (d.wire ++ rest) = .ok d := by
  obtain ⟨ef, vu, rf, sn, ma, sd⟩ := d
  obtain ⟨h1, h2, h3, h4⟩ := h
  obtain ⟨e, rfl⟩ := isBit_iff.mp h1
  obtain ⟨v1, v0, rfl⟩ := isBits2_iff.mp h2
  obtain ⟨r, rfl⟩ := isBit_iff.mp h3
  have h4' : sn.toNat < 8 := h4
  obtain ⟨a, b, c, hf, hp, hw⟩ := flagByteLiquid e v1 v0 r ⟨sn.toNat, h4'⟩
  simp only [UInt8.ofNat_toNat] at hf hp hw
  refine ⟨?_, ?_⟩
  · have := parseFlags_bits false e v1 v0 r a b c
    simp only [SrLiquidLevelSensor.encode, hf, List.append_assoc, SrLiquidLevelSensor.wire, hw, leBytes2, leBytes4]
    rw [show (go!"0" : Bytes) = bit false from rfl, this]; rfl
  · have e2 := readerRead_put16 (buf := zeros 2) rfl ma (put32 sd ++ rest)
    have e4 := readerRead_put32 (buf := zeros 4) rfl sd rest
    simp only [SrLiquidLevelSensor.wire, hw, leBytes2, leBytes4, List.append_assoc, List.cons_append, List.nil_append,
      SrLiquidLevelSensor.decode, readByte_cons, ok_bind, sub58, hp, e2, e4, sub12, sub24,
      sub45, le16_put16, le32_put32, pure_eq_ok]

example : SrLiquidLevelSensor.wire
    { errorFlag := go!"1", valueUnit := go!"10", rawDataFlag := go!"0",
      sensorNumber := 7, moduleAddress := 513, sensorData := 0xFF } = [0b01100111, 1, 2, 255, 0, 0, 0] := by decide

theorem C64_ext_pos (d d0 : SrExtPosData) (rest : Bytes) (h : d.WF) :
    d.encode = .ok d.wire ∧ SrExtPosData.decode d0 (d.wire ++ rest) = .ok (d.onto d0) := by
  obtain ⟨nsfe, sfe, pfe, hfe, vfe, vdop, hdop, pdop, sat, ns⟩ := d
  obtain ⟨h1, h2, h3, h4, h5⟩ := h
  obtain ⟨n, rfl⟩ := isBit_iff.mp h1
  obtain ⟨s, rfl⟩ := isBit_iff.mp h2
  obtain ⟨p, rfl⟩ := isBit_iff.mp h3
  obtain ⟨hh, rfl⟩ := isBit_iff.mp h4
  obtain ⟨v, rfl⟩ := isBit_iff.mp h5
  simp only [SrExtPosData.wire, flagByte5, ifSet_eq, leBytes2, List.append_assoc]
  refine ⟨?_, ?_⟩
  · have := parseFlags_bits false false false n s p hh v
    simp only [SrExtPosData.encode, List.append_assoc]
    rw [show (go!"000" : Bytes) = bit false ++ (bit false ++ bit false) from rfl]
    simp only [List.append_assoc, this]
    simp
  · obtain ⟨t1, l1, e1⟩ := optU16_bit v vdop d0.vdop (tmp := zeros 2) (optBytes (bit hh) (put16 hdop) ++ (optBytes (bit p) (put16 pdop) ++ (optBytes (bit s) [sat]
      ++ (optBytes (bit n) (put16 ns) ++ rest)))) rfl
    obtain ⟨t2, l2, e2⟩ := optU16_bit hh hdop d0.hdop (optBytes (bit p) (put16 pdop) ++ (optBytes (bit s) [sat]
      ++ (optBytes (bit n) (put16 ns) ++ rest))) l1
    obtain ⟨t3, l3, e3⟩ := optU16_bit p pdop d0.pdop (optBytes (bit s) [sat]
      ++ (optBytes (bit n) (put16 ns) ++ rest)) l2
    obtain ⟨t4, l4, e4⟩ := optU16_bit n ns d0.navigationSystem rest l3
    simp only [List.cons_append, List.nil_append, SrExtPosData.decode, readByte_cons, ok_bind, sub34, sub45, sub56, sub67, sub78, e1, e2, e3, e4,
      optU8_bit, pure_eq_ok, SrExtPosData.onto, present_bit]

example : SrExtPosData.wire
    { nsfe := go!"1", sfe := go!"1", pfe := go!"0", hfe := go!"0", vfe := go!"1",
      vdop := 65535, satellites := 12, navigationSystem := 5 } = [0b11001, 255, 255, 12, 5, 0] := by decide

/-- The decoder understands the layout of the protocol for all 2^16 masks. -/
theorem C64_ad_sensors_decode (d d0 : SrAdSensorsData) (rest : Bytes) (h : d.FlagsWF) :
    SrAdSensorsData.decode d0 (d.wire ++ rest) = .ok (d.onto d0) := by
  obtain ⟨di1, di2, di3, di4, di5, di6, di7, di8, dout, as1, as2, as3, as4, as5, as6, as7, as8,
    ad1, ad2, ad3, ad4, ad5, ad6, ad7, ad8, an1, an2, an3, an4, an5, an6, an7, an8⟩ := d
  obtain ⟨h1, h2, h3, h4, h5, h6, h7, h8, g1, g2, g3, g4, g5, g6, g7, g8⟩ := h
  obtain ⟨f1, rfl⟩ := isBit_iff.mp h1
  obtain ⟨f2, rfl⟩ := isBit_iff.mp h2
  obtain ⟨f3, rfl⟩ := isBit_iff.mp h3
  obtain ⟨f4, rfl⟩ := isBit_iff.mp h4
  obtain ⟨f5, rfl⟩ := isBit_iff.mp h5
  obtain ⟨f6, rfl⟩ := isBit_iff.mp h6
  obtain ⟨f7, rfl⟩ := isBit_iff.mp h7
  obtain ⟨f8, rfl⟩ := isBit_iff.mp h8
  obtain ⟨a1, rfl⟩ := isBit_iff.mp g1
  obtain ⟨a2, rfl⟩ := isBit_iff.mp g2
  obtain ⟨a3, rfl⟩ := isBit_iff.mp g3
  obtain ⟨a4, rfl⟩ := isBit_iff.mp g4
  obtain ⟨a5, rfl⟩ := isBit_iff.mp g5
  obtain ⟨a6, rfl⟩ := isBit_iff.mp g6
  obtain ⟨a7, rfl⟩ := isBit_iff.mp g7
  obtain ⟨a8, rfl⟩ := isBit_iff.mp g8
  simp only [SrAdSensorsData.wire, flagByte8, ifSet_eq, leBytes3, List.append_assoc, List.cons_append, List.nil_append]
  obtain ⟨t1, l1, e1⟩ := optU24_bit a1 an1 d0.ans1 (tmp := zeros 3) ((optBytes (bit a2) (put24 an2) ++
    (optBytes (bit a3) (put24 an3) ++ (optBytes (bit a4) (put24 an4) ++
    (optBytes (bit a5) (put24 an5) ++ (optBytes (bit a6) (put24 an6) ++
    (optBytes (bit a7) (put24 an7) ++ (optBytes (bit a8) (put24 an8) ++ rest)))))))) rfl
  obtain ⟨t2, l2, e2⟩ := optU24_bit a2 an2 d0.ans2 ((optBytes (bit a3) (put24 an3) ++ (optBytes (bit a4) (put24 an4) ++
    (optBytes (bit a5) (put24 an5) ++ (optBytes (bit a6) (put24 an6) ++
    (optBytes (bit a7) (put24 an7) ++ (optBytes (bit a8) (put24 an8) ++ rest))))))) l1
  obtain ⟨t3, l3, e3⟩ := optU24_bit a3 an3 d0.ans3 ((optBytes (bit a4) (put24 an4) ++
    (optBytes (bit a5) (put24 an5) ++ (optBytes (bit a6) (put24 an6) ++
    (optBytes (bit a7) (put24 an7) ++ (optBytes (bit a8) (put24 an8) ++ rest)))))) l2
  obtain ⟨t4, l4, e4⟩ := optU24_bit a4 an4 d0.ans4 (
    (optBytes (bit a5) (put24 an5) ++ (optBytes (bit a6) (put24 an6) ++
    (optBytes (bit a7) (put24 an7) ++ (optBytes (bit a8) (put24 an8) ++ rest))))) l3
  obtain ⟨t5, l5, e5⟩ := optU24_bit a5 an5 d0.ans5 (
    (optBytes (bit a6) (put24 an6) ++
    (optBytes (bit a7) (put24 an7) ++ (optBytes (bit a8) (put24 an8) ++ rest)))) l4
  obtain ⟨t6, l6, e6⟩ := optU24_bit a6 an6 d0.ans6 (
    (optBytes (bit a7) (put24 an7) ++ (optBytes (bit a8) (put24 an8) ++ rest))) l5
  obtain ⟨t7, l7, e7⟩ := optU24_bit a7 an7 d0.ans7 (optBytes (bit a8) (put24 an8) ++ rest) l6
  obtain ⟨t8, l8, e8⟩ := optU24_bit a8 an8 d0.ans8 rest l7
  simp only [SrAdSensorsData.decode, readByte_cons, ok_bind, sub01, sub12, sub23, sub34, sub45, sub56, sub67, sub78,
    optU8_bit, e1, e2, e3, e4, e5, e6, e7, e8, pure_eq_ok, SrAdSensorsData.onto, present_bit, low24_eq]

/-- The encoder emits it for the mirror-symmetric analog masks only (C28). -/
theorem C64_ad_sensors_encode_partial (d : SrAdSensorsData) (h : d.FlagsWF) : d.encode = .ok d.wire ↔ d.Mirror := by
  obtain ⟨di1, di2, di3, di4, di5, di6, di7, di8, dout, as1, as2, as3, as4, as5, as6, as7, as8,
    ad1, ad2, ad3, ad4, ad5, ad6, ad7, ad8, an1, an2, an3, an4, an5, an6, an7, an8⟩ := d
  obtain ⟨h1, h2, h3, h4, h5, h6, h7, h8, g1, g2, g3, g4, g5, g6, g7, g8⟩ := h
  obtain ⟨f1, rfl⟩ := isBit_iff.mp h1
  obtain ⟨f2, rfl⟩ := isBit_iff.mp h2
  obtain ⟨f3, rfl⟩ := isBit_iff.mp h3
  obtain ⟨f4, rfl⟩ := isBit_iff.mp h4
  obtain ⟨f5, rfl⟩ := isBit_iff.mp h5
  obtain ⟨f6, rfl⟩ := isBit_iff.mp h6
  obtain ⟨f7, rfl⟩ := isBit_iff.mp h7
  obtain ⟨f8, rfl⟩ := isBit_iff.mp h8
  obtain ⟨a1, rfl⟩ := isBit_iff.mp g1
  obtain ⟨a2, rfl⟩ := isBit_iff.mp g2
  obtain ⟨a3, rfl⟩ := isBit_iff.mp g3
  obtain ⟨a4, rfl⟩ := isBit_iff.mp g4
  obtain ⟨a5, rfl⟩ := isBit_iff.mp g5
  obtain ⟨a6, rfl⟩ := isBit_iff.mp g6
  obtain ⟨a7, rfl⟩ := isBit_iff.mp g7
  obtain ⟨a8, rfl⟩ := isBit_iff.mp g8
  have hp1 := parseFlags_bits f8 f7 f6 f5 f4 f3 f2 f1
  have hp2 := parseFlags_bits a1 a2 a3 a4 a5 a6 a7 a8
  simp only [SrAdSensorsData.wire, flagByte8, ifSet_eq, leBytes3, List.append_assoc, List.cons_append, List.nil_append,
    SrAdSensorsData.encode, hp1, hp2, ok_bind, pure_eq_ok, Except.ok.injEq, List.cons.injEq, true_and, and_true,
    SrAdSensorsData.Mirror, bit_inj]
  clear hp1 hp2 h1 h2 h3 h4 h5 h6 h7 h8 g1 g2 g3 g4 g5 g6 g7 g8
  revert a1 a2 a3 a4 a5 a6 a7 a8
  decide +kernel

/-- The encoder emits the layout of the protocol for all 256 masks. -/
theorem C64_counters_encode (d : SrCountersData) (h : d.FlagsWF) : d.encode = .ok d.wire := by
  obtain ⟨as1, as2, as3, as4, as5, as6, as7, as8, an1, an2, an3, an4, an5, an6, an7, an8⟩ := d
  obtain ⟨g1, g2, g3, g4, g5, g6, g7, g8⟩ := h
  obtain ⟨a1, rfl⟩ := isBit_iff.mp g1
  obtain ⟨a2, rfl⟩ := isBit_iff.mp g2
  obtain ⟨a3, rfl⟩ := isBit_iff.mp g3
  obtain ⟨a4, rfl⟩ := isBit_iff.mp g4
  obtain ⟨a5, rfl⟩ := isBit_iff.mp g5
  obtain ⟨a6, rfl⟩ := isBit_iff.mp g6
  obtain ⟨a7, rfl⟩ := isBit_iff.mp g7
  obtain ⟨a8, rfl⟩ := isBit_iff.mp g8
  have hp1 := parseFlags_bits a8 a7 a6 a5 a4 a3 a2 a1
  simp only [SrCountersData.wire, flagByte8, ifSet_eq, leBytes3, SrCountersData.encode, List.append_assoc, hp1, ok_bind, pure_eq_ok]

/-- The decoder understands it, except that counter 2 is put in the place of counter 1 (C29). -/
theorem C64_counters_decode_partial (d d0 : SrCountersData) (rest : Bytes) (h : d.FlagsWF) :
    SrCountersData.decode d0 (d.wire ++ rest) = .ok { d.onto d0 with
      cn1 := present d.cfe2 (low24 d.cn2) (present d.cfe1 (low24 d.cn1) d0.cn1)
      cn2 := d0.cn2 } := by
  obtain ⟨as1, as2, as3, as4, as5, as6, as7, as8, an1, an2, an3, an4, an5, an6, an7, an8⟩ := d
  obtain ⟨g1, g2, g3, g4, g5, g6, g7, g8⟩ := h
  obtain ⟨a1, rfl⟩ := isBit_iff.mp g1
  obtain ⟨a2, rfl⟩ := isBit_iff.mp g2
  obtain ⟨a3, rfl⟩ := isBit_iff.mp g3
  obtain ⟨a4, rfl⟩ := isBit_iff.mp g4
  obtain ⟨a5, rfl⟩ := isBit_iff.mp g5
  obtain ⟨a6, rfl⟩ := isBit_iff.mp g6
  obtain ⟨a7, rfl⟩ := isBit_iff.mp g7
  obtain ⟨a8, rfl⟩ := isBit_iff.mp g8
  simp only [SrCountersData.wire, flagByte8, ifSet_eq, leBytes3, List.append_assoc, List.cons_append, List.nil_append]
  obtain ⟨t1, l1, e1⟩ := optU24_bit a1 an1 d0.cn1 (tmp := zeros 3) ((optBytes (bit a2) (put24 an2) ++
    (optBytes (bit a3) (put24 an3) ++ (optBytes (bit a4) (put24 an4) ++
    (optBytes (bit a5) (put24 an5) ++ (optBytes (bit a6) (put24 an6) ++
    (optBytes (bit a7) (put24 an7) ++ (optBytes (bit a8) (put24 an8) ++ rest)))))))) rfl
  obtain ⟨t2, l2, e2⟩ := optU24_bit a2 an2 (if a1 then UInt32.ofNat (an1.toNat % 16777216) else d0.cn1) ((optBytes (bit a3) (put24 an3) ++ (optBytes (bit a4) (put24 an4) ++
    (optBytes (bit a5) (put24 an5) ++ (optBytes (bit a6) (put24 an6) ++
    (optBytes (bit a7) (put24 an7) ++ (optBytes (bit a8) (put24 an8) ++ rest))))))) l1
  obtain ⟨t3, l3, e3⟩ := optU24_bit a3 an3 d0.cn3 ((optBytes (bit a4) (put24 an4) ++
    (optBytes (bit a5) (put24 an5) ++ (optBytes (bit a6) (put24 an6) ++
    (optBytes (bit a7) (put24 an7) ++ (optBytes (bit a8) (put24 an8) ++ rest)))))) l2
  obtain ⟨t4, l4, e4⟩ := optU24_bit a4 an4 d0.cn4 (
    (optBytes (bit a5) (put24 an5) ++ (optBytes (bit a6) (put24 an6) ++
    (optBytes (bit a7) (put24 an7) ++ (optBytes (bit a8) (put24 an8) ++ rest))))) l3
  obtain ⟨t5, l5, e5⟩ := optU24_bit a5 an5 d0.cn5 (
    (optBytes (bit a6) (put24 an6) ++
    (optBytes (bit a7) (put24 an7) ++ (optBytes (bit a8) (put24 an8) ++ rest)))) l4
  obtain ⟨t6, l6, e6⟩ := optU24_bit a6 an6 d0.cn6 (
    (optBytes (bit a7) (put24 an7) ++ (optBytes (bit a8) (put24 an8) ++ rest))) l5
  obtain ⟨t7, l7, e7⟩ := optU24_bit a7 an7 d0.cn7 (optBytes (bit a8) (put24 an8) ++ rest) l6
  obtain ⟨t8, l8, e8⟩ := optU24_bit a8 an8 d0.cn8 rest l7
  simp only [SrCountersData.decode, readByte_cons, ok_bind, sub01, sub12, sub23, sub34, sub45, sub56, sub67, sub78,
    e1, e2, e3, e4, e5, e6, e7, e8, pure_eq_ok, SrCountersData.onto, present_bit, low24_eq]

example : SrCountersData.wire
    { cfe1 := go!"1", cfe2 := go!"0", cfe3 := go!"0", cfe4 := go!"0", cfe5 := go!"0", cfe6 := go!"0",
      cfe7 := go!"0", cfe8 := go!"1", cn1 := 11, cn8 := 0x010203 } = [0b10000001, 11, 0, 0, 3, 2, 1] := by decide

theorem C64_term_identity (d d0 : SrTermIdentity) (rest : Bytes) (h : d.WF) :
    d.encode = .ok d.wire ∧ SrTermIdentity.decode d0 (d.wire ++ rest) = .ok (d.onto d0) := by
  obtain ⟨tid, mne, bse, nide, ssra, lngce, imsie, imeie, hdide, hdid, imei, imsi, lngc, nid, bs, msisdn⟩ := d
  obtain ⟨g1, g2, g3, g4, g5, g6, g7, g8, w1, w2, w3, w4, w5⟩ := h
  obtain ⟨m, rfl⟩ := isBit_iff.mp g1
  obtain ⟨b, rfl⟩ := isBit_iff.mp g2
  obtain ⟨n, rfl⟩ := isBit_iff.mp g3
  obtain ⟨s, rfl⟩ := isBit_iff.mp g4
  obtain ⟨l, rfl⟩ := isBit_iff.mp g5
  obtain ⟨si, rfl⟩ := isBit_iff.mp g6
  obtain ⟨ei, rfl⟩ := isBit_iff.mp g7
  obtain ⟨hd, rfl⟩ := isBit_iff.mp g8
  simp only [bit_eq_one] at w1 w2 w3 w4 w5
  have hp := parseUint2_bits m b n s l si ei hd
  simp only [SrTermIdentity.wire, flagByte8, ifSet_eq, leBytes2, leBytes4, List.append_assoc, List.cons_append, List.nil_append]
  refine ⟨?_, ?_⟩
  · simp only [SrTermIdentity.encode, List.append_assoc, hp, UInt8.ofNat_toNat, List.cons_append,
      List.nil_append]
  · obtain ⟨t1, l1, e1⟩ := optU16_bit hd hdid d0.homeDispatcherIdentifier (tmp := zeros 2) (
      (optBytes (bit ei) imei ++ (optBytes (bit si) imsi ++ (optBytes (bit l) lngc ++
      (optBytes (bit n) nid ++ (optBytes (bit b) (put16 bs) ++ (optBytes (bit m) msisdn ++ rest))))))) rfl
    obtain ⟨t2, l2, e2⟩ := optU16_bit b bs d0.bufferSize (tmp := zeros 2) (optBytes (bit m) msisdn ++ rest) rfl
    have f1 := fun r => optN_bit ei 15 imei d0.imei r w1 (by decide)
    have f2 := fun r => optN_bit si 16 imsi d0.imsi r w2 (by decide)
    have f3 := fun r => optN_bit l 3 lngc d0.languageCode r w3 (by decide)
    have f4 := fun r => optN_bit n 3 nid d0.networkIdentifier r w4 (by decide)
    have f5 := fun r => optN_bit m 15 msisdn d0.mobileNumber r w5 (by decide)
    have e0 := fun r => readerRead_put32 (buf := zeros 4) rfl tid r
    simp only [SrTermIdentity.decode, e0, ok_bind, readByte_cons, sub01, sub12, sub23, sub34, sub45, sub56, sub67, sub78,
      e1, e2, f1, f2, f3, f4, f5, le32_put32, pure_eq_ok, SrTermIdentity.onto, present_bit]

example : SrTermIdentity.wire
    { terminalIdentifier := 133552, mne := go!"0", bse := go!"1", nide := go!"0",
      ssra := go!"1", lngce := go!"0", imsie := go!"0", imeie := go!"1", hdide := go!"0",
      imei := go!"357994050020000", bufferSize := 1024 } =
    [0xB0, 0x09, 0x02, 0x00, 0b01010010] ++ go!"357994050020000" ++ [0, 4] := by decide

theorem C64_auth_info (d d0 : SrAuthInfo) (h : d.WF) :
    d.encode = .ok d.wire ∧ SrAuthInfo.decode d0 d.wire =
      .ok { d with serverSequence := if d.serverSequence = [] then d0.serverSequence else d.serverSequence } := by
  have he : d.encode = .ok d.wire := by
    rw [SrAuthInfo.encode, SrAuthInfo.wire]
    by_cases hs : d.serverSequence = [] <;> simp [hs]
  obtain ⟨b, e, r⟩ := auth_rt d d0 h
  rw [he] at e; cases e
  exact ⟨he, r⟩

theorem C64_module_data (d d0 : SrModuleData) (rest : Bytes) (h : d.WF) :
    d.encode = .ok d.wire ∧ SrModuleData.decode d0 (d.wire ++ rest) = .ok d := by
  obtain ⟨mt, vid, fwv, swv, md, st, srn, dscr⟩ := d
  obtain ⟨h1, h2⟩ := h
  simp only [SrModuleData.wire, leBytes2, leBytes4]
  refine ⟨rfl, ?_⟩
  have e1 := fun r => readerRead_put32 (buf := zeros 4) rfl vid r
  have e2 := fun v r => readerRead_put16 (buf := zeros 2) rfl v r
  have e3 := readCString_append srn (dscr ++ 0 :: rest) h1
  have e4 := readCString_append dscr rest h2
  simp only [SrModuleData.decode, List.append_assoc, List.cons_append, List.nil_append, readByte_cons, ok_bind, e1, e2, e3, e4,
    le32_put32, le16_put16, pure_eq_ok]

theorem C64_dispatcher_identity (d d0 : SrDispatcherIdentity) :
    d.encode = .ok d.wire ∧ SrDispatcherIdentity.decode d0 d.wire = .ok d := by
  have he : d.encode = .ok d.wire := by rw [SrDispatcherIdentity.wire, leBytes4]; rfl
  obtain ⟨b, e, r⟩ := disp_rt d d0
  rw [he] at e; cases e
  exact ⟨he, r⟩

/-- `time`: seconds since 2010; the coordinates are sent as the 32-bit numbers of C35. -/
theorem C64_pos_data_encode (env : Env) (d : SrPosData) (h : d.WF) (time : Nat) (ht : time < 2 ^ 32)
    (hnt : d.navigationTime = timeOffset + (time : Int) * 1000000000) :
    d.encode env = .ok (d.wire time (encLat env d.latitude).toNat (encLon env d.longitude).toNat) := by
  obtain ⟨ntm, lat, lon, alte, lohs, lahs, mv, bb, cs, fix, vld, dirh, alts, speed, dir, odm, din, src, alt, srcd⟩ := d
  obtain ⟨g1, g2, g3, g4, g5, g6, g7, g8, _, hd, ha, hsp, hodm, halt⟩ := h
  obtain ⟨a, rfl⟩ := isBit_iff.mp g1
  obtain ⟨lo, rfl⟩ := isBit_iff.mp g2
  obtain ⟨la, rfl⟩ := isBit_iff.mp g3
  obtain ⟨m, rfl⟩ := isBit_iff.mp g4
  obtain ⟨b, rfl⟩ := isBit_iff.mp g5
  obtain ⟨c, rfl⟩ := isBit_iff.mp g6
  obtain ⟨f, rfl⟩ := isBit_iff.mp g7
  obtain ⟨v, rfl⟩ := isBit_iff.mp g8
  simp only at hnt hd ha hsp
  subst hnt
  have hd' : dirh.toNat < 2 := hd
  have ha' : alts.toNat < 2 := ha
  have hsp' : speed.toNat ≤ 1638 := hsp
  have w := posSpeedWord_eq ⟨speed.toNat, by omega⟩ ⟨dirh.toNat, hd'⟩ ⟨alts.toNat, ha'⟩
  have w2 := posDirByte_eq ⟨dir.toNat, UInt8.toNat_lt _⟩ ⟨dirh.toNat, hd'⟩
  simp only [UInt16.ofNat_toNat, UInt8.ofNat_toNat] at w w2
  have hp := parseFlags_bits a lo la m b c f v
  simp only [SrPosData.wire, leBytes4_nat ht, leBytes4, leBytes3, flagByte8, ifSet_eq, ← w2,
    leBytes2_nat (n := speed.toNat * 10 + alts.toNat * 2 ^ 14 + dirh.toNat * 2 ^ 15) (by omega), ← w]
  simp only [SrPosData.encode, List.append_assoc, hp, ok_bind, pure_eq_ok, encNavTime_rt env time ht, List.cons_append, List.nil_append]

/-- The coordinates are the angles that the two numbers denote (C33, C61), the direction is the one of C32. Anything may follow a position without altitude; the
library reads the altitude as four bytes, see C36. -/
theorem C64_pos_data_decode_partial (d d0 : SrPosData) (h : d.WF) (time lat lon : Nat) (ht : time < 2 ^ 32) (hlat : lat < 2 ^ 32)
    (hlon : lon < 2 ^ 32) (hnt : d.navigationTime = timeOffset + (time : Int) * 1000000000) (rest : Bytes)
    (hr : d.alte = go!"1" → rest = []) :
    SrPosData.decode d0 (d.wire time lat lon ++ rest) = .ok { d with
      latitude := decLat (UInt32.ofNat lat), longitude := decLon (UInt32.ofNat lon)
      direction := d.directionBack
      altitude := present d.alte d.altitude d0.altitude, sourceData := d0.sourceData } := by
  obtain ⟨ntm, lat', lon', alte, lohs, lahs, mv, bb, cs, fix, vld, dirh, alts, speed, dir, odm, din, src, alt, srcd⟩ := d
  obtain ⟨g1, g2, g3, g4, g5, g6, g7, g8, _, hd, ha, hsp, hodm, halt⟩ := h
  obtain ⟨a, rfl⟩ := isBit_iff.mp g1
  obtain ⟨lo, rfl⟩ := isBit_iff.mp g2
  obtain ⟨la, rfl⟩ := isBit_iff.mp g3
  obtain ⟨m, rfl⟩ := isBit_iff.mp g4
  obtain ⟨b, rfl⟩ := isBit_iff.mp g5
  obtain ⟨c, rfl⟩ := isBit_iff.mp g6
  obtain ⟨f, rfl⟩ := isBit_iff.mp g7
  obtain ⟨v, rfl⟩ := isBit_iff.mp g8
  simp only at hnt hd ha hsp hodm halt hr
  subst hnt
  simp only [bit_eq_one] at halt hr
  have hd' : dirh.toNat < 2 := hd
  have ha' : alts.toNat < 2 := ha
  have hsp' : speed.toNat ≤ 1638 := hsp
  have w := posSpeedWord_eq ⟨speed.toNat, by omega⟩ ⟨dirh.toNat, hd'⟩ ⟨alts.toNat, ha'⟩
  obtain ⟨w1, w2, w3⟩ := speedWord ⟨speed.toNat, by omega⟩ ⟨dirh.toNat, hd'⟩ ⟨alts.toNat, ha'⟩
  have hb := posDirByte_eq ⟨dir.toNat, UInt8.toNat_lt _⟩ ⟨dirh.toNat, hd'⟩
  have hdb := dirByte_back ⟨dir.toNat, UInt8.toNat_lt _⟩ ⟨dirh.toNat, hd'⟩
  simp only [UInt16.ofNat_toNat, UInt8.ofNat_toNat] at w w1 w2 w3 hb hdb
  simp only [SrPosData.wire, leBytes4_nat ht, leBytes4_nat hlat, leBytes4_nat hlon, leBytes3, flagByte8, ifSet_eq, ← hb,
    leBytes2_nat (n := speed.toNat * 10 + alts.toNat * 2 ^ 14 + dirh.toNat * 2 ^ 15) (by omega), ← w]
  have t1 := fun v r => readerRead_put32 (buf := zeros 4) rfl v r
  have t2 := fun u v r => readerRead_put32 (buf := put32 u) rfl v r
  have t3 := fun v r => readerRead_put16 (buf := zeros 2) rfl v r
  have t4 := fun v r => readerRead_put24 (buf := zeros 3) rfl v r
  have hspd : UInt16.ofNat (10 * speed.toNat) / 10 = speed := by
    apply UInt16.toNat_inj.mp
    rw [UInt16.toNat_div, UInt16.toNat_ofNat']
    show 10 * speed.toNat % 65536 / 10 = _
    omega
  simp only [List.append_assoc, List.cons_append, List.nil_append, SrPosData.decode, t1, t2, t3, t4, ok_bind, readByte_cons,
    le32_put32, le16_put16, w1, w2, parse_speed, w3, hspd, hdb,
    le32_put24_of_lt _ hodm, sub01, sub12, sub23, sub34, sub45, sub56, sub67, sub78, decTime_eq time ht, pure_eq_ok, present_bit, SrPosData.directionBack]
  cases a
  · simp
  · cases hr rfl
    simp [optBytes, bit, readAlt, le32_put24_of_lt _ (halt rfl)]

/-! ## C65: records -/

/-- Encoding a subrecord: its type (inferred if 0), the length of its data, its data. -/
theorem C65_subrecord (env : Env) (rd : RecordData) (d : SubData) (data : Bytes) (h : rd.subrecordData = some d)
    (he : d.encode env = .ok data) (hl : data.length < 2 ^ 16) (ht : d.TypeOK rd.subrecordType)
    (hd : rd.subrecordLength = 0 ∨ rd.subrecordLength.toNat = data.length) :
    rd.encode env = .ok (subrecordWire (d.wireType rd.subrecordType) data) := by
  have hlen' : (if rd.subrecordLength = 0 then d.length env else rd.subrecordLength) = UInt16.ofNat data.length := by
    split
    · exact length_eq env d data he
    · rcases hd with h | h
      · contradiction
      · rw [← h, UInt16.ofNat_toNat]
  have := typeOK_encode d _ ht
  simp only [RecordData.encode, h]
  rw [this]
  simp only [ok_bind, hlen', he, liftErr, pure_eq_ok, subrecordWire, leBytes2_nat hl]

/-- Decoding a subrecord, whatever its type and data: it and nothing else is consumed, and what follows is decoded as if it
stood alone. -/
theorem C65_subrecord_decode (env : Env) (t : UInt8) (data : Bytes) (hl : data.length < 2 ^ 16) (prior : List RecordData)
    (rest : Bytes) :
    RecordDataSet.decode env prior (subrecordWire t data ++ rest) =
      (RecordDataSet.decode env [] (subrecordWire t data)).bind fun out => RecordDataSet.decode env (prior ++ out) rest := by
  have hk : depthFor (subrecordWire t data).length ≤ depthFor (subrecordWire t data ++ rest).length := by
    unfold depthFor; simp
  have step := fun r => rdStep_wire env (srRespDecode env (depthFor (subrecordWire t data ++ rest).length)) t data hl r
  cases hx : subDecode env (srRespDecode env (depthFor (subrecordWire t data ++ rest).length)) t (UInt16.ofNat data.length) data with
  | error e =>
    have s1 := step rest
    have s2 := step []
    rw [hx] at s1 s2
    rw [rds_decode_error env _ _ _ _ (by simp [subrecordWire]) (Nat.le_refl _) s1]
    rw [List.append_nil] at s2
    rw [rds_decode_error env _ _ _ _ (by simp [subrecordWire]) hk s2]
    rfl
  | ok d =>
    have s1 := step rest
    have s2 := step []
    rw [hx] at s1 s2
    rw [List.append_nil] at s2
    rw [rds_decode_step env prior _ _ _ _ (by simp [subrecordWire]) (Nat.le_refl _) s1,
      rds_decode_step env [] _ _ _ _ (by simp [subrecordWire]) hk s2, rds_decode_nil]
    rfl

/-- Encoding a service data record. -/
theorem C65_record (env : Env) (r : ServiceDataRecord) (h : r.WF env) (time : Nat) (ht : time < 2 ^ 32)
    (hd : r.tmfe = go!"1" → r.time = timeOffset + (time : Int) * 1000000000) :
    ∃ data, RecordDataSet.encode env r.recordDataSet = .ok data ∧ r.encode env = .ok (r.wire time data) := by
  obtain ⟨rl, rn, ssod, rsod, grp, rpp, tmfe, evfe, obfe, oid, evid, tm, sst, rst, rds⟩ := r
  obtain ⟨g1, g2, g3, g4, g5, g6, g7, htm, hrd, enc, henc, hlen, hrl⟩ := h
  obtain ⟨a, rfl⟩ := isBit_iff.mp g1
  obtain ⟨b, rfl⟩ := isBit_iff.mp g2
  obtain ⟨c, rfl⟩ := isBit_iff.mp g3
  obtain ⟨p1, p0, rfl⟩ := isBits2_iff.mp g4
  obtain ⟨t, rfl⟩ := isBit_iff.mp g5
  obtain ⟨ev, rfl⟩ := isBit_iff.mp g6
  obtain ⟨ob, rfl⟩ := isBit_iff.mp g7
  simp only at hd henc hrl
  have hrl' : (if rl = 0 then UInt16.ofNat enc.length else rl) = UInt16.ofNat enc.length := by
    split
    · rfl
    · rcases hrl with h | h
      · contradiction
      · rw [← h, UInt16.ofNat_toNat]
  have htime : optBytes (bit t) (put32 (encRecTime tm)) = optBytes (bit t) (put32 (UInt32.ofNat time)) := by
    cases t
    · rfl
    · rw [hd rfl, encRecTime_eq time ht]
  refine ⟨enc, henc, ?_⟩
  have hp := parseFlags_bits a b c p1 p0 t ev ob
  simp only [ServiceDataRecord.encode, henc, ok_bind, hrl', List.append_assoc, hp, liftErr, pure_eq_ok, htime,
    ServiceDataRecord.wire, leBytes2_nat hlen, leBytes2, leBytes4, leBytes4_nat ht, ifSet_eq, flagByteSdr]

/-- One record of the loop. -/
theorem sdrStep_wire (env : Env) (r : ServiceDataRecord) (h : r.FlagsWF) (time : Nat) (ht : time < 2 ^ 32)
    (data : Bytes) (hl : data.length < 2 ^ 16) (rest : Bytes) (k : Nat) (hk : depthFor (r.wire time data ++ rest).length ≤ k) :
    sdrStep (rdsDecodeD env k) (r.wire time data ++ rest) =
      (RecordDataSet.decode env [] data).bind fun rds => .ok (({ r with
        recordLength := UInt16.ofNat data.length
        objectIdentifier := present r.obfe r.objectIdentifier 0
        eventIdentifier := present r.evfe r.eventIdentifier 0
        time := present r.tmfe (timeOffset + (time : Int) * 1000000000) zeroTime
        recordDataSet := rds } : ServiceDataRecord), rest) := by
  obtain ⟨rl, rn, ssod, rsod, grp, rpp, tmfe, evfe, obfe, oid, evid, tm, sst, rst, rds⟩ := r
  obtain ⟨g1, g2, g3, g4, g5, g6, g7⟩ := h
  obtain ⟨a, rfl⟩ := isBit_iff.mp g1
  obtain ⟨b, rfl⟩ := isBit_iff.mp g2
  obtain ⟨c, rfl⟩ := isBit_iff.mp g3
  obtain ⟨p1, p0, rfl⟩ := isBits2_iff.mp g4
  obtain ⟨t, rfl⟩ := isBit_iff.mp g5
  obtain ⟨ev, rfl⟩ := isBit_iff.mp g6
  obtain ⟨ob, rfl⟩ := isBit_iff.mp g7
  have hn : (UInt16.ofNat data.length).toNat = data.length := by
    rw [UInt16.toNat_ofNat']; exact Nat.mod_eq_of_lt hl
  simp only [ServiceDataRecord.wire, leBytes2_nat hl, leBytes2, leBytes4, leBytes4_nat ht, ifSet_eq, flagByteSdr, present_bit,
    List.append_assoc, List.cons_append, List.nil_append] at hk ⊢
  generalize hw : put16 (UInt16.ofNat data.length) ++ (put16 rn ++ (mk8 a b c p1 p0 t ev ob :: (optBytes (bit ob) (put32 oid) ++
      (optBytes (bit ev) (put32 evid) ++ (optBytes (bit t) (put32 (UInt32.ofNat time)) ++ (sst :: rst :: (data ++ rest))))))) = w
  have hh := sdrHead_rt (UInt16.ofNat data.length) rn a b c p1 p0 t ev ob oid evid (UInt32.ofNat time) sst rst (data ++ rest)
  rw [hw, decTime_eq time ht] at hh
  have hne : w ≠ [] := by rw [← hw]; simp [put16]
  have hwl : data.length ≤ w.length := by rw [← hw]; simp only [List.length_append, List.length_cons]; omega
  have hrd : rdsDecodeD env k data = RecordDataSet.decode env [] data :=
    rdsDecode_depth env _ _ _ _ (by rw [hw] at hk; unfold depthFor at *; omega) (Nat.le_refl _)
  simp only [sdrStep, hh, ok_bind]
  by_cases hr : data ++ rest = []
  · obtain ⟨rfl, rfl⟩ := List.append_eq_nil_iff.mp hr
    simp [rds_decode_nil, Except.bind]
  · simp only [ne_eq, hr, not_false_eq_true, if_true, hn, readerRead_exact data rest hr, ok_bind, hrd]
    rfl

/-- Decoding a service data record with any data whatever. -/
theorem C65_record_decode (env : Env) (r : ServiceDataRecord) (h : r.FlagsWF) (time : Nat) (ht : time < 2 ^ 32)
    (data : Bytes) (hl : data.length < 2 ^ 16) (prior : List ServiceDataRecord) (rest : Bytes) :
    ServiceDataSet.decode env prior (r.wire time data ++ rest) =
      (RecordDataSet.decode env [] data).bind fun rds => ServiceDataSet.decode env (prior ++ [{ r with
        recordLength := UInt16.ofNat data.length
        objectIdentifier := present r.obfe r.objectIdentifier 0
        eventIdentifier := present r.evfe r.eventIdentifier 0
        time := present r.tmfe (timeOffset + (time : Int) * 1000000000) zeroTime
        recordDataSet := rds }]) rest := by
  have hne : r.wire time data ++ rest ≠ [] := by simp [ServiceDataRecord.wire, leBytes]
  have step := sdrStep_wire env r h time ht data hl rest _ (Nat.le_refl _)
  cases hx : RecordDataSet.decode env [] data with
  | error e =>
    rw [hx] at step
    exact sds_decode_error env _ _ _ _ hne (Nat.le_refl _) step
  | ok rds =>
    rw [hx] at step
    exact sds_decode_step env prior _ _ _ _ hne (Nat.le_refl _) step

/-- A record with an object and a time but no event; three bytes of data. -/
def wireRecord : ServiceDataRecord :=
  { recordNumber := 97, ssod := go!"1", rsod := go!"0", grp := go!"0", rpp := go!"01", tmfe := go!"1", evfe := go!"0", obfe := go!"1",
    objectIdentifier := 133552, sourceServiceType := 2, recipientServiceType := 3 }

example : wireRecord.FlagsWF := by unfold ServiceDataRecord.FlagsWF; decide

example : wireRecord.wire 351389440 [9, 1, 0, 131] =
    [4, 0, 97, 0, 0b10001101, 0xB0, 0x09, 0x02, 0x00, 0x00, 0xC7, 0xF1, 0x14, 2, 3, 9, 1, 0, 131] := by decide

/-- Sets are the concatenation of their elements. -/
theorem C65_concatenation (env : Env) (rds : List RecordData) (bs : List Bytes)
    (h : List.Forall₂ (fun (rd : RecordData) b => rd.encode env = .ok b) rds bs) :
    RecordDataSet.encode env rds = .ok bs.flatten := by
  induction h with
  | nil => rfl
  | cons h1 _ ih => simp only [RecordDataSet.encode, h1, ih, ok_bind, pure_eq_ok, List.flatten_cons]

theorem C65_concatenation_records (env : Env) (rs : List ServiceDataRecord) (bs : List Bytes)
    (h : List.Forall₂ (fun (r : ServiceDataRecord) b => r.encode env = .ok b) rs bs) :
    ServiceDataSet.encode env rs = .ok bs.flatten := by
  induction h with
  | nil => rfl
  | cons h1 _ ih => simp only [ServiceDataSet.encode, h1, ih, ok_bind, pure_eq_ok, List.flatten_cons]

/-- Encoding a response. -/
theorem C65_response (env : Env) (r : PtResponse) (records : Bytes)
    (h : ServiceDataSet.encode env (r.sdr.getD []) = .ok records) : r.encode env = .ok (r.wire records) := by
  obtain ⟨id, pr, sdr⟩ := r
  cases sdr with
  | none => cases h; simp only [PtResponse.encode, PtResponse.wire, leBytes2, pure_eq_ok, ok_bind]
  | some s => simp only [Option.getD] at h; simp only [PtResponse.encode, PtResponse.wire, leBytes2, pure_eq_ok, ok_bind, h]

/-- Decoding a response into a fresh value, whatever its records. -/
theorem C65_response_decode (env : Env) (r : PtResponse) (records : Bytes) :
    PtResponse.decode env {} (r.wire records) =
      (ServiceDataSet.decode env [] records).bind fun s =>
        .ok { r with sdr := if records = [] then none else some s } := by
  obtain ⟨id, pr, sdr⟩ := r
  have e := bufferRead_full (buf := zeros 2) (x := put16 id) (r := pr :: records) rfl (by simp [put16])
  simp only [PtResponse.decode, PtResponse.wire, leBytes2, List.append_assoc, List.cons_append, List.nil_append, e, ok_bind,
    readByte_cons, le16_put16]
  by_cases hr : records = []
  · subst hr; simp [sds_decode_nil, Except.bind]
  · simp only [ne_eq, hr, not_false_eq_true, if_true, if_false, pure_eq_ok]
    cases ServiceDataSet.decode env [] records <;> rfl

end Egts
