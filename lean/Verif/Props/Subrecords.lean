import Verif.Spec.Record
import Verif.Proofs.Record

/-!
# Properties of the subrecord codecs (C24-C37, C40)

Decoders are called as `decode receiver bytes`; the theorems quantify over the receiver, so they say
in particular what happens when a structure is reused.
-/

namespace Egts

/-! ## C24 -/

theorem C24_record_response (env : Env) (d d0 : SrResponse) :
    ∃ b, d.encode = .ok b ∧ SrResponse.decode env d0 b = .ok d := by
  obtain ⟨b, e, l, h⟩ := resp_rt env d 3
  exact ⟨b, e, by rw [SrResponse.decode, l]; exact h⟩

theorem C24_result_code (d d0 : SrResultCode) :
    ∃ b, d.encode = .ok b ∧ SrResultCode.decode d0 b = .ok d := by
  obtain ⟨b, e, _, h⟩ := resultCode_rt d d0
  exact ⟨b, e, h⟩

theorem C24_state_data (d d0 : SrStateData) (h : d.WF) :
    ∃ b, d.encode = .ok b ∧ SrStateData.decode d0 b = .ok d := by
  obtain ⟨b, e, _, h⟩ := stateData_rt d d0 h
  exact ⟨b, e, h⟩

example : SrStateData.WF
    { state := 2, mainPowerSourceVoltage := 127, backUpBatteryVoltage := 0,
      internalBatteryVoltage := 41, nms := go!"1", ibu := go!"0", bbu := go!"1" } := by decide +kernel

/-! ## C25 -/

theorem C25_abs_counter (d d0 : SrAbsCntrData) :
    ∃ b, d.encode = .ok b ∧
      SrAbsCntrData.decode d0 b = .ok { d with counterValue := low24 d.counterValue } := by
  obtain ⟨b, e, _, h⟩ := absCntr_rt d d0
  exact ⟨b, e, h⟩

theorem C25_abs_analog (d d0 : SrAbsAnSensData) :
    ∃ b, d.encode = .ok b ∧
      SrAbsAnSensData.decode d0 b = .ok { d with value := low24 d.value } := by
  obtain ⟨b, e, _, h⟩ := absAn_rt d d0
  exact ⟨b, e, h⟩

/-- Below 2^24 the reduction of the two theorems above is the identity. -/
theorem C25_in_range (v : UInt32) (h : v.toNat < 2 ^ 24) : low24 v = v := low24_of_lt v h

example : (0xABCDEF : UInt32).toNat < 2 ^ 24 := by decide

/-! ## C26 -/

theorem C26_liquid_level (d d0 : SrLiquidLevelSensor) (h : d.WF) :
    ∃ b, d.encode = .ok b ∧ SrLiquidLevelSensor.decode d0 b = .ok d := by
  obtain ⟨b, e, _, h⟩ := liquid_rt d d0 h
  exact ⟨b, e, h⟩

example : SrLiquidLevelSensor.WF
    { errorFlag := go!"1", valueUnit := go!"10", rawDataFlag := go!"0",
      sensorNumber := 7, moduleAddress := 513, sensorData := 0xFFFFFFFF } := by decide +kernel

/-- The restriction to sensor numbers 0..7 is needed: number 8 comes back as 0, and with the raw
data flag changed. -/
theorem C26_sensor_number_8 : ∃ d : SrLiquidLevelSensor, IsBit d.errorFlag ∧ IsBits2 d.valueUnit ∧
    IsBit d.rawDataFlag ∧ d.sensorNumber = 8 ∧ ∃ b y, d.encode = .ok b ∧
      SrLiquidLevelSensor.decode {} b = .ok y ∧ y.sensorNumber = 0 ∧ y.valueUnit ≠ d.valueUnit :=
  ⟨{ errorFlag := go!"0", valueUnit := go!"00", rawDataFlag := go!"1", sensorNumber := 8 },
    by decide, by decide, by decide, rfl, [0b00011000, 0, 0, 0, 0, 0, 0],
    { errorFlag := go!"0", valueUnit := go!"01", rawDataFlag := go!"1", sensorNumber := 0 },
    by decide +kernel, by decide +kernel, rfl, by decide⟩

/-! ## C27 -/

theorem C27_ext_pos (d d0 : SrExtPosData) (h : d.WF) :
    ∃ b, d.encode = .ok b ∧ SrExtPosData.decode d0 b = .ok (d.onto d0) := extPos_rt d d0 h

/-- If the absent fields are zero, decoding into a fresh structure gives the same structure. -/
theorem C27_ext_pos_fresh (d : SrExtPosData) (h : d.WF)
    (hv : d.vfe = go!"0" → d.vdop = 0) (hh : d.hfe = go!"0" → d.hdop = 0)
    (hp : d.pfe = go!"0" → d.pdop = 0) (hs : d.sfe = go!"0" → d.satellites = 0)
    (hn : d.nsfe = go!"0" → d.navigationSystem = 0) :
    ∃ b, d.encode = .ok b ∧ SrExtPosData.decode {} b = .ok d := by
  obtain ⟨b, e1, e2⟩ := extPos_rt d {} h
  refine ⟨b, e1, ?_⟩
  rw [e2]
  obtain ⟨h1, h2, h3, h4, h5⟩ := h
  have key : ∀ {α : Type} {f : Bytes} {x z : α}, IsBit f → (f = go!"0" → x = z) → present f x z = x := by
    intro α f x z hf hx
    rcases hf with rfl | rfl
    · rw [hx rfl]; simp [present]
    · simp [present]
  simp only [SrExtPosData.onto, key h5 hv, key h4 hh, key h3 hp, key h2 hs, key h1 hn]

example : SrExtPosData.WF
    { nsfe := go!"1", sfe := go!"1", pfe := go!"0", hfe := go!"0", vfe := go!"1",
      vdop := 65535, satellites := 12, navigationSystem := 5 } := by decide +kernel

/-! ## C28: false of the code -/

/-- Full statement of C28 (not provable): `∀ d, d.FlagsWF → … → decode (encode d) = d`. It fails as
soon as the set of analog sensors is not its own mirror image, because `Encode` writes the analog
presence flags in the wrong bit order. -/
theorem C28_false : ∃ d : SrAdSensorsData, d.FlagsWF ∧ ∃ b, d.encode = .ok b ∧
    ∀ d0, ∃ y, SrAdSensorsData.decode d0 b = .ok y ∧ y.asfe1 = go!"0" ∧ d.asfe1 = go!"1" ∧
      y.ans8 = 7 ∧ d.ans8 = 0 :=
  ⟨{ dioe1 := go!"0", dioe2 := go!"0", dioe3 := go!"0", dioe4 := go!"0", dioe5 := go!"0", dioe6 := go!"0",
     dioe7 := go!"0", dioe8 := go!"0", asfe1 := go!"1", asfe2 := go!"0", asfe3 := go!"0", asfe4 := go!"0",
     asfe5 := go!"0", asfe6 := go!"0", asfe7 := go!"0", asfe8 := go!"0", ans1 := 7 }, by decide +kernel,
   [0, 0, 128, 7, 0, 0], by decide +kernel, fun d0 =>
   ⟨{ d0 with
      dioe1 := go!"0", dioe2 := go!"0", dioe3 := go!"0", dioe4 := go!"0", dioe5 := go!"0", dioe6 := go!"0",
      dioe7 := go!"0", dioe8 := go!"0", digitalOutputs := 0, asfe1 := go!"0", asfe2 := go!"0", asfe3 := go!"0",
      asfe4 := go!"0", asfe5 := go!"0", asfe6 := go!"0", asfe7 := go!"0", asfe8 := go!"1", ans8 := 7 },
    rfl, rfl, rfl, rfl, rfl⟩⟩

/-- What holds: the round trip, for all digital presence masks and the mirror-symmetric analog ones. -/
theorem C28_ad_sensors_partial (d d0 : SrAdSensorsData) (h : d.FlagsWF) (hm : d.Mirror) :
    ∃ b, d.encode = .ok b ∧ SrAdSensorsData.decode d0 b = .ok (d.onto d0) := adSens_rt d d0 h hm

/-- What the code does, for all 65536 combinations and all values: the digital sensors come back; the
presence of the analog sensors comes back mirrored, and their values are dealt in order to the sensors that
are then present (`SrAdSensorsData.readBack`). -/
theorem C28_ad_sensors_exact (d d0 : SrAdSensorsData) (h : d.FlagsWF) :
    ∃ b, d.encode = .ok b ∧ SrAdSensorsData.decode d0 b = .ok (d.readBack d0) := adSens_back d d0 h

/-- Three sensors out of eight: the values of the first, second and fifth are read as those of the fourth,
seventh and eighth. -/
example : ∃ d : SrAdSensorsData, d.FlagsWF ∧ ¬ d.Mirror ∧ d.ans1 = 11 ∧ d.ans2 = 22 ∧ d.ans5 = 55 ∧
    (d.readBack {}).asfe1 = go!"0" ∧ (d.readBack {}).asfe8 = go!"1" ∧ (d.readBack {}).ans1 = 0 ∧
    (d.readBack {}).ans4 = 11 ∧ (d.readBack {}).ans7 = 22 ∧ (d.readBack {}).ans8 = 55 :=
  ⟨{ dioe1 := go!"0", dioe2 := go!"0", dioe3 := go!"1", dioe4 := go!"0", dioe5 := go!"0", dioe6 := go!"0",
     dioe7 := go!"0", dioe8 := go!"0", asfe1 := go!"1", asfe2 := go!"1", asfe3 := go!"0", asfe4 := go!"0",
     asfe5 := go!"1", asfe6 := go!"0", asfe7 := go!"0", asfe8 := go!"0", ans1 := 11, ans2 := 22, ans5 := 55, adio3 := 200 },
   by decide +kernel, by decide +kernel, rfl, rfl, rfl, by decide +kernel, by decide +kernel, by decide +kernel,
   by decide +kernel, by decide +kernel, by decide +kernel⟩

/-- Always: the digital flags come back as they were and the analog flags come back mirrored. -/
theorem C28_analog_flags_mirrored (d d0 y : SrAdSensorsData) (b : Bytes) (h : d.FlagsWF)
    (he : d.encode = .ok b) (hd : SrAdSensorsData.decode d0 b = .ok y) :
    y.dioe1 = d.dioe1 ∧ y.dioe2 = d.dioe2 ∧ y.dioe3 = d.dioe3 ∧ y.dioe4 = d.dioe4 ∧
    y.dioe5 = d.dioe5 ∧ y.dioe6 = d.dioe6 ∧ y.dioe7 = d.dioe7 ∧ y.dioe8 = d.dioe8 ∧
    y.digitalOutputs = d.digitalOutputs ∧
    y.asfe1 = d.asfe8 ∧ y.asfe2 = d.asfe7 ∧ y.asfe3 = d.asfe6 ∧ y.asfe4 = d.asfe5 ∧
    y.asfe5 = d.asfe4 ∧ y.asfe6 = d.asfe3 ∧ y.asfe7 = d.asfe2 ∧ y.asfe8 = d.asfe1 := by
  obtain ⟨h1, h2, h3, h4, h5, h6, h7, h8, g1, g2, g3, g4, g5, g6, g7, g8⟩ := h
  obtain ⟨f1, e1⟩ := isBit_iff.mp h1
  obtain ⟨f2, e2⟩ := isBit_iff.mp h2
  obtain ⟨f3, e3⟩ := isBit_iff.mp h3
  obtain ⟨f4, e4⟩ := isBit_iff.mp h4
  obtain ⟨f5, e5⟩ := isBit_iff.mp h5
  obtain ⟨f6, e6⟩ := isBit_iff.mp h6
  obtain ⟨f7, e7⟩ := isBit_iff.mp h7
  obtain ⟨f8, e8⟩ := isBit_iff.mp h8
  obtain ⟨a1, k1⟩ := isBit_iff.mp g1
  obtain ⟨a2, k2⟩ := isBit_iff.mp g2
  obtain ⟨a3, k3⟩ := isBit_iff.mp g3
  obtain ⟨a4, k4⟩ := isBit_iff.mp g4
  obtain ⟨a5, k5⟩ := isBit_iff.mp g5
  obtain ⟨a6, k6⟩ := isBit_iff.mp g6
  obtain ⟨a7, k7⟩ := isBit_iff.mp g7
  obtain ⟨a8, k8⟩ := isBit_iff.mp g8
  have hp1 := parseFlags_bits f8 f7 f6 f5 f4 f3 f2 f1
  have hp2 := parseFlags_bits a1 a2 a3 a4 a5 a6 a7 a8
  simp only [SrAdSensorsData.encode, e1, e2, e3, e4, e5, e6, e7, e8, k1, k2, k3, k4, k5, k6, k7, k8,
    List.append_assoc, hp1, hp2, ok_bind, pure_eq_ok, Except.ok.injEq, List.cons_append, List.nil_append] at he
  subst he
  simp only [SrAdSensorsData.decode, readByte_cons, ok_bind, sub01, sub12, sub23, sub34, sub45, sub56, sub67,
    sub78, bind_eq_ok, Prod.exists, pure_eq_ok, Except.ok.injEq] at hd
  obtain ⟨_, _, _, _, _, _, _, _, _, _, _, _, _, _, _, _, _, _, _, _, _, _, _, _,
    _, _, _, _, _, _, _, _, _, _, _, _, _, _, _, _, _, _, _, _, _, _, _, _, _, _, _, _, _, _, _, _, rfl⟩ := hd
  simp only [e1, e2, e3, e4, e5, e6, e7, e8, k1, k2, k3, k4, k5, k6, k7, k8, and_self]

/-- Hence the mirror condition is exactly what the round trip needs. -/
theorem C28_mirror_necessary (d d0 : SrAdSensorsData) (b : Bytes) (h : d.FlagsWF)
    (he : d.encode = .ok b) (hd : SrAdSensorsData.decode d0 b = .ok d) : d.Mirror := by
  obtain ⟨_, _, _, _, _, _, _, _, _, m1, m2, m3, m4, _⟩ := C28_analog_flags_mirrored d d0 d b h he hd
  exact ⟨m1, m2, m3, m4⟩

example : ∃ d : SrAdSensorsData, d.FlagsWF ∧ d.Mirror ∧ d.asfe2 = go!"1" ∧ d.dioe3 = go!"1" :=
  ⟨{ dioe1 := go!"0", dioe2 := go!"0", dioe3 := go!"1", dioe4 := go!"0", dioe5 := go!"0", dioe6 := go!"0",
     dioe7 := go!"0", dioe8 := go!"0", asfe1 := go!"0", asfe2 := go!"1", asfe3 := go!"0", asfe4 := go!"0",
     asfe5 := go!"0", asfe6 := go!"0", asfe7 := go!"1", asfe8 := go!"0", ans2 := 7, ans7 := 9, adio3 := 200 },
   by decide +kernel, by unfold SrAdSensorsData.Mirror; decide +kernel, rfl, rfl⟩

/-! ## C29: false of the code -/

/-- Full statement of C29 (not provable): decoding gives `d.onto d0` for every presence mask. The
second counter is stored as the first. -/
theorem C29_false : ∃ d : SrCountersData, d.FlagsWF ∧ ∃ b, d.encode = .ok b ∧
    SrCountersData.decode {} b ≠ .ok (d.onto {}) :=
  ⟨{ cfe1 := go!"1", cfe2 := go!"1", cfe3 := go!"0", cfe4 := go!"0", cfe5 := go!"0", cfe6 := go!"0",
     cfe7 := go!"0", cfe8 := go!"0", cn1 := 11, cn2 := 22 }, by decide +kernel, [3, 11, 0, 0, 22, 0, 0],
   by decide +kernel, by decide +kernel⟩

/-- What the code does, for all 256 masks: everything round-trips except that counter 2 lands in
counter 1 and the field for counter 2 is never assigned. -/
theorem C29_counters_exact (d d0 : SrCountersData) (h : d.FlagsWF) :
    ∃ b, d.encode = .ok b ∧ SrCountersData.decode d0 b = .ok { d.onto d0 with
      cn1 := present d.cfe2 (low24 d.cn2) (present d.cfe1 (low24 d.cn1) d0.cn1)
      cn2 := d0.cn2 } := counters_rt d d0 h

/-- The round trip, for the 128 masks without counter 2. -/
theorem C29_counters_partial (d d0 : SrCountersData) (h : d.FlagsWF) (h2 : d.cfe2 = go!"0") :
    ∃ b, d.encode = .ok b ∧ SrCountersData.decode d0 b = .ok (d.onto d0) := by
  obtain ⟨b, e1, e2⟩ := counters_rt d d0 h
  refine ⟨b, e1, ?_⟩
  rw [e2]
  simp [SrCountersData.readBack, SrCountersData.onto, h2, present]

example : ∃ d : SrCountersData, d.FlagsWF ∧ d.cfe2 = go!"0" ∧ d.cfe1 = go!"1" ∧ d.cfe8 = go!"1" :=
  ⟨{ cfe1 := go!"1", cfe2 := go!"0", cfe3 := go!"0", cfe4 := go!"0", cfe5 := go!"0", cfe6 := go!"0",
     cfe7 := go!"0", cfe8 := go!"1", cn1 := 11, cn8 := 22 }, by decide +kernel, rfl, rfl, rfl⟩

/-! ## C30 -/

theorem C30_term_identity (d d0 : SrTermIdentity) (h : d.WF) :
    ∃ b, d.encode = .ok b ∧ SrTermIdentity.decode d0 b = .ok (d.onto d0) := term_rt d d0 h

example : SrTermIdentity.WF
    { terminalIdentifier := 133552, mne := go!"0", bse := go!"1", nide := go!"0",
      ssra := go!"1", lngce := go!"0", imsie := go!"0", imeie := go!"1", hdide := go!"0",
      imei := go!"357994050020000", bufferSize := 1024 } := by
  unfold SrTermIdentity.WF; decide +kernel

/-! ## C31 -/

/-- The optional third text is kept from the receiver when it is empty (absent). -/
theorem C31_auth_info (d d0 : SrAuthInfo) (h : d.WF) :
    ∃ b, d.encode = .ok b ∧ SrAuthInfo.decode d0 b =
      .ok { d with serverSequence := if d.serverSequence = [] then d0.serverSequence else d.serverSequence } :=
  auth_rt d d0 h

theorem C31_module_data (d d0 : SrModuleData) (h : d.WF) :
    ∃ b, d.encode = .ok b ∧ SrModuleData.decode d0 b = .ok d := module_rt d d0 h

theorem C31_dispatcher_identity (d d0 : SrDispatcherIdentity) :
    ∃ b, d.encode = .ok b ∧ SrDispatcherIdentity.decode d0 b = .ok d := disp_rt d d0

example : SrAuthInfo.WF
    { userName := go!"user", userPassword := go!"secret", serverSequence := go!"seq" } := by
  unfold SrAuthInfo.WF NoNul; decide +kernel
example : SrModuleData.WF
    { moduleType := 255, vendorID := 7, serialNumber := go!"SN-1", description := [] } := by
  unfold SrModuleData.WF NoNul; decide +kernel

/-! ## C32 -/

def posExample : SrPosData :=
  { navigationTime := timeOffset + 351389440 * 1000000000, latitude := 55, longitude := 37, alte := go!"1", lohs := go!"0",
    lahs := go!"0", mv := go!"1", bb := go!"0", cs := go!"0", fix := go!"1", vld := go!"1",
    directionHighestBit := 1, altitudeSign := 0, speed := 1638, direction := 172, odometer := 16777215,
    digitalInputs := 3, source := 9, altitude := 30 }

theorem posExample_wf : posExample.WF := by
  refine ⟨by decide, by decide, by decide, by decide, by decide, by decide, by decide, by decide,
    ⟨351389440, by decide, rfl⟩, by decide, by decide, by decide, by decide, by decide⟩

example : posExample.WF := posExample_wf

/-- Full statement of C32 (not provable): decoding gives back every field except the two coordinates (C33,
C34), an absent altitude and the source data, which the code never transmits. The direction of 266 degrees,
which is `256 + 10`, comes back as `256 + 138`: the code uses the separate ninth bit as the eighth. -/
theorem C32_false (env : Env) : ∃ d : SrPosData, d.WF ∧ d.directionHighestBit = 1 ∧ d.direction = 10 ∧
    ∃ b, d.encode env = .ok b ∧ ∀ d0, ∃ y, SrPosData.decode d0 b = .ok y ∧ y.directionHighestBit = 1 ∧ y.direction = 138 := by
  have hw : ({ posExample with direction := 10 } : SrPosData).WF := posExample_wf
  refine ⟨_, hw, rfl, rfl, ?_⟩
  obtain ⟨b, e, _⟩ := pos_rt env _ {} hw
  refine ⟨b, e, fun d0 => ?_⟩
  obtain ⟨b', e', h⟩ := pos_rt env _ d0 hw
  rw [e] at e'
  injection e' with e'
  subst e'
  exact ⟨_, h, rfl, rfl⟩

/-- What the code does, for all values: the highest bit of the direction is set if the separate ninth bit
is; every other field except the two coordinates comes back; an absent altitude and the source data (which
the code never transmits) keep the receiver's value. -/
theorem C32_pos_data_exact (env : Env) (d d0 : SrPosData) (h : d.WF) :
    ∃ b y, d.encode env = .ok b ∧ SrPosData.decode d0 b = .ok y ∧
      y = { d with latitude := y.latitude, longitude := y.longitude,
                   direction := d.direction ||| (d.directionHighestBit <<< 7),
                   altitude := present d.alte d.altitude d0.altitude, sourceData := d0.sourceData } := by
  obtain ⟨b, e1, e2⟩ := pos_rt env d d0 h
  exact ⟨b, _, e1, e2, rfl⟩

/-- The round trip, for the positions whose ninth bit of the direction is not set, or whose eighth is too. -/
theorem C32_pos_data_partial (env : Env) (d d0 : SrPosData) (h : d.WF) (hd : d.directionHighestBit = 1 → 128 ≤ d.direction) :
    ∃ b y, d.encode env = .ok b ∧ SrPosData.decode d0 b = .ok y ∧
      y = { d with latitude := y.latitude, longitude := y.longitude,
                   altitude := present d.alte d.altitude d0.altitude, sourceData := d0.sourceData } := by
  obtain ⟨b, e1, e2⟩ := pos_rt env d d0 h
  refine ⟨b, _, e1, e2, ?_⟩
  have := directionBack_eq d h.2.2.2.2.2.2.2.2.2.1 hd
  simp only [SrPosData.onto, this]

example : posExample.WF ∧ (posExample.directionHighestBit = 1 → 128 ≤ posExample.direction) := ⟨posExample_wf, by decide⟩

/-- The speed bound is needed: two speeds that encode to the same bytes. -/
theorem C32_speed_limit (env : Env) : ∃ a b : SrPosData,
    a.speed ≠ b.speed ∧ b = { a with speed := b.speed } ∧ a.encode env = b.encode env :=
  ⟨{ posExample with speed := 0, directionHighestBit := 0 },
   { posExample with speed := 32768, directionHighestBit := 0 }, by decide, rfl, by
    have h : posSpeedWord 0 0 0 = posSpeedWord 32768 0 0 := by decide
    simp only [SrPosData.encode, posExample, h]⟩

/-! ## C33 -/

theorem C33_latitude_drift (env : Env) (v : UInt32) :
    encLat env (decLat v) = v ∨ (v ≠ 0 ∧ encLat env (decLat v) = v - 1) :=
  reenc env 90 (by norm_num) 90 (by norm_num) (by norm_num) v

theorem C33_longitude_drift (env : Env) (v : UInt32) :
    encLon env (decLon v) = v ∨ (v ≠ 0 ∧ encLon env (decLon v) = v - 1) :=
  reenc env 180 (by norm_num) 180 (by norm_num) (by norm_num) v

/-- Both outcomes occur: decode-encode is not the identity on coordinates. -/
theorem C33_drift_occurs (env : Env) : encLat env (decLat 186415) = 186414 ∧ encLat env (decLat 3) = 3 ∧
    encLon env (decLon 186415) = 186414 := by
  refine ⟨?_, ?_, ?_⟩
  · exact toU32_eq env _ 186414 (by decide +kernel) (by decide +kernel) (by norm_num)
  · exact toU32_eq env _ 3 (by decide +kernel) (by decide +kernel) (by norm_num)
  · exact toU32_eq env _ 186414 (by decide +kernel) (by decide +kernel) (by norm_num)

/-! ## C34 -/

theorem C34_latitude_accuracy (env : Env) (x : F64) (h0 : 0 ≤ x) (h1 : x ≤ 90) :
    |decLat (encLat env x) - x| ≤ 22 / 1000000000 := lat_acc env x h0 h1

theorem C34_longitude_accuracy (env : Env) (x : F64) (h0 : 0 ≤ x) (h1 : x ≤ 180) :
    |decLon (encLon env x) - x| ≤ 44 / 1000000000 := lon_acc env x h0 h1

example : (0 : F64) ≤ 5533 / 100 ∧ (5533 / 100 : F64) ≤ 90 := by norm_num

end Egts
