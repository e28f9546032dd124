import Verif.Props.After

/-! # C107, continued: the other kinds, cut anywhere

A field whose first byte is the one at which `Decode` stops is as before, unless it is read with `ReadByte`: then it is 0. -/

namespace Egts
open Run

/-- Precision data with all its fields, cut after `n` bytes. -/
theorem C107_precision (e d : SrExtPosData) (c : Bytes) (n : Nat) (hd : SrExtPosData.decode e (31 :: c) = .ok d) (hl : c.length = 9) (hn : n ≤ 9) :
    let p := (SrExtPosData.run.after e ((31 :: c).take n)).1
    CutField 0 1 n (p.nsfe, p.sfe, p.pfe, p.hfe, p.vfe) (d.nsfe, d.sfe, d.pfe, d.hfe, d.vfe) (e.nsfe, e.sfe, e.pfe, e.hfe, e.vfe) ∧
    CutField 1 3 n p.vdop d.vdop e.vdop ∧ CutField 3 5 n p.hdop d.hdop e.hdop ∧ CutField 5 7 n p.pdop d.pdop e.pdop ∧
    CutField 5 8 n p.satellites d.satellites e.satellites ∧ (n = 6 ∨ n = 7 → p.satellites = 0) ∧
    CutField 8 10 n p.navigationSystem d.navigationSystem e.navigationSystem := by
  rcases c with _ | ⟨b0, _ | ⟨b1, _ | ⟨b2, _ | ⟨b3, _ | ⟨b4, _ | ⟨b5, _ | ⟨b6, _ | ⟨b7, _ | ⟨b8, _ | ⟨b9, c⟩⟩⟩⟩⟩⟩⟩⟩⟩⟩ <;> simp at hl
  have h := (after_ok SrExtPosData.run e d _).mpr (by rw [extPos_sim]; exact hd)
  have e0 : fmt8 31 = go!"00011111" := by decide
  have hx : d = (SrExtPosData.run.after e [31, b0, b1, b2, b3, b4, b5, b6, b7, b8]).1 := by rw [h]
  subst hx
  clear h hd
  interval_cases n
  all_goals
    simp [CutField, Run.after, SrExtPosData.run, bind, pure, EStateM.bind, EStateM.pure, Run.read, Run.set, Run.byteTo, Run.opt8, Run.opt16,
      readerRead, readByte, zeros, e0, substr, one]

set_option maxHeartbeats 4000000 in
/-- Counters, all eight of them. The second one goes to the field of the first (C29). -/
theorem C107_counters (e d : SrCountersData) (c : Bytes) (n : Nat) (hd : SrCountersData.decode e (255 :: c) = .ok d) (hl : c.length = 24) (hn : n ≤ 24) :
    let p := (SrCountersData.run.after e ((255 :: c).take n)).1
    CutField 0 1 n (p.cfe1, p.cfe2, p.cfe3, p.cfe4, p.cfe5, p.cfe6, p.cfe7, p.cfe8) (d.cfe1, d.cfe2, d.cfe3, d.cfe4, d.cfe5, d.cfe6, d.cfe7, d.cfe8)
      (e.cfe1, e.cfe2, e.cfe3, e.cfe4, e.cfe5, e.cfe6, e.cfe7, e.cfe8) ∧
    CutField 1 7 n p.cn1 d.cn1 e.cn1 ∧ (n = 4 → p.cn1 = le32 (c.take 3 ++ [0])) ∧ p.cn2 = e.cn2 ∧
    CutField 7 10 n p.cn3 d.cn3 e.cn3 ∧ CutField 10 13 n p.cn4 d.cn4 e.cn4 ∧ CutField 13 16 n p.cn5 d.cn5 e.cn5 ∧
    CutField 16 19 n p.cn6 d.cn6 e.cn6 ∧ CutField 19 22 n p.cn7 d.cn7 e.cn7 ∧ CutField 22 25 n p.cn8 d.cn8 e.cn8 := by
  rcases c with _ | ⟨b0, _ | ⟨b1, _ | ⟨b2, _ | ⟨b3, _ | ⟨b4, _ | ⟨b5, _ | ⟨b6, _ | ⟨b7, _ | ⟨b8, _ | ⟨b9, _ | ⟨b10, _ | ⟨b11, _ | ⟨b12, _ | ⟨b13, _ | ⟨b14, _ | ⟨b15, _ | ⟨b16, _ | ⟨b17, _ | ⟨b18, _ | ⟨b19, _ | ⟨b20, _ | ⟨b21, _ | ⟨b22, _ | ⟨b23, _ | ⟨b24, c⟩⟩⟩⟩⟩⟩⟩⟩⟩⟩⟩⟩⟩⟩⟩⟩⟩⟩⟩⟩⟩⟩⟩⟩⟩ <;> simp at hl
  have e0 : fmt8 255 = go!"11111111" := by decide
  have hx : d = { cfe1 := go!"1", cfe2 := go!"1", cfe3 := go!"1", cfe4 := go!"1", cfe5 := go!"1", cfe6 := go!"1", cfe7 := go!"1", cfe8 := go!"1"
                  cn1 := le32 [b3, b4, b5, 0], cn3 := le32 [b6, b7, b8, 0], cn4 := le32 [b9, b10, b11, 0], cn5 := le32 [b12, b13, b14, 0], cn6 := le32 [b15, b16, b17, 0], cn7 := le32 [b18, b19, b20, 0], cn8 := le32 [b21, b22, b23, 0], cn2 := e.cn2 } := by
    simp [SrCountersData.decode, readByte, readerRead, zeros, ok_bind, optU24, e0, substr, one] at hd
    exact hd.symm
  subst hx
  clear hd
  interval_cases n
  all_goals
    simp [CutField, Run.after, SrCountersData.run, bind, pure, EStateM.bind, EStateM.pure, Run.read, Run.set, Run.opt24,
      readerRead, readByte, zeros, e0, substr, one]

set_option maxHeartbeats 4000000 in
/-- Digital and analogue sensors, all sixteen of them. -/
theorem C107_sensors (e d : SrAdSensorsData) (o : UInt8) (c : Bytes) (n : Nat) (hd : SrAdSensorsData.decode e (255 :: o :: 255 :: c) = .ok d)
    (hl : c.length = 32) (hn : n ≤ 34) :
    let p := (SrAdSensorsData.run.after e ((255 :: o :: 255 :: c).take n)).1
    CutField 0 1 n (p.dioe1, p.dioe2, p.dioe3, p.dioe4, p.dioe5, p.dioe6, p.dioe7, p.dioe8)
      (d.dioe1, d.dioe2, d.dioe3, d.dioe4, d.dioe5, d.dioe6, d.dioe7, d.dioe8) (e.dioe1, e.dioe2, e.dioe3, e.dioe4, e.dioe5, e.dioe6, e.dioe7, e.dioe8) ∧
    CutField 0 2 n p.digitalOutputs d.digitalOutputs e.digitalOutputs ∧ (n = 1 → p.digitalOutputs = 0) ∧
    CutField 2 3 n (p.asfe1, p.asfe2, p.asfe3, p.asfe4, p.asfe5, p.asfe6, p.asfe7, p.asfe8)
      (d.asfe1, d.asfe2, d.asfe3, d.asfe4, d.asfe5, d.asfe6, d.asfe7, d.asfe8) (e.asfe1, e.asfe2, e.asfe3, e.asfe4, e.asfe5, e.asfe6, e.asfe7, e.asfe8) ∧
    CutField 2 4 n p.adio1 d.adio1 e.adio1 ∧ (n = 3 → p.adio1 = 0) ∧ CutField 3 5 n p.adio2 d.adio2 e.adio2 ∧ (n = 4 → p.adio2 = 0) ∧
    CutField 4 6 n p.adio3 d.adio3 e.adio3 ∧ (n = 5 → p.adio3 = 0) ∧ CutField 5 7 n p.adio4 d.adio4 e.adio4 ∧ (n = 6 → p.adio4 = 0) ∧
    CutField 6 8 n p.adio5 d.adio5 e.adio5 ∧ (n = 7 → p.adio5 = 0) ∧ CutField 7 9 n p.adio6 d.adio6 e.adio6 ∧ (n = 8 → p.adio6 = 0) ∧
    CutField 8 10 n p.adio7 d.adio7 e.adio7 ∧ (n = 9 → p.adio7 = 0) ∧ CutField 9 11 n p.adio8 d.adio8 e.adio8 ∧ (n = 10 → p.adio8 = 0) ∧
    CutField 11 14 n p.ans1 d.ans1 e.ans1 ∧ CutField 14 17 n p.ans2 d.ans2 e.ans2 ∧ CutField 17 20 n p.ans3 d.ans3 e.ans3 ∧
    CutField 20 23 n p.ans4 d.ans4 e.ans4 ∧ CutField 23 26 n p.ans5 d.ans5 e.ans5 ∧ CutField 26 29 n p.ans6 d.ans6 e.ans6 ∧
    CutField 29 32 n p.ans7 d.ans7 e.ans7 ∧ CutField 32 35 n p.ans8 d.ans8 e.ans8 := by
  rcases c with _ | ⟨b0, _ | ⟨b1, _ | ⟨b2, _ | ⟨b3, _ | ⟨b4, _ | ⟨b5, _ | ⟨b6, _ | ⟨b7, _ | ⟨b8, _ | ⟨b9, _ | ⟨b10, _ | ⟨b11, _ | ⟨b12, _ | ⟨b13, _ | ⟨b14, _ | ⟨b15, _ | ⟨b16, _ | ⟨b17, _ | ⟨b18, _ | ⟨b19, _ | ⟨b20, _ | ⟨b21, _ | ⟨b22, _ | ⟨b23, _ | ⟨b24, _ | ⟨b25, _ | ⟨b26, _ | ⟨b27, _ | ⟨b28, _ | ⟨b29, _ | ⟨b30, _ | ⟨b31, c⟩⟩⟩⟩⟩⟩⟩⟩⟩⟩⟩⟩⟩⟩⟩⟩⟩⟩⟩⟩⟩⟩⟩⟩⟩⟩⟩⟩⟩⟩⟩⟩
  all_goals first
    | (exfalso; simp at hl; done)
    | skip
  obtain rfl : c = [] := by simpa using hl
  have e0 : fmt8 255 = go!"11111111" := by decide
  have hx : d = { dioe1 := go!"1", dioe2 := go!"1", dioe3 := go!"1", dioe4 := go!"1", dioe5 := go!"1", dioe6 := go!"1", dioe7 := go!"1", dioe8 := go!"1"
                  asfe1 := go!"1", asfe2 := go!"1", asfe3 := go!"1", asfe4 := go!"1", asfe5 := go!"1", asfe6 := go!"1", asfe7 := go!"1", asfe8 := go!"1"
                  digitalOutputs := o, adio1 := b0, adio2 := b1, adio3 := b2, adio4 := b3, adio5 := b4, adio6 := b5, adio7 := b6, adio8 := b7
                  ans1 := le32 [b8, b9, b10, 0], ans2 := le32 [b11, b12, b13, 0], ans3 := le32 [b14, b15, b16, 0], ans4 := le32 [b17, b18, b19, 0], ans5 := le32 [b20, b21, b22, 0], ans6 := le32 [b23, b24, b25, 0], ans7 := le32 [b26, b27, b28, 0], ans8 := le32 [b29, b30, b31, 0] } := by
    simp [SrAdSensorsData.decode, readByte, readerRead, zeros, ok_bind, optU8, optU24, e0, substr, one] at hd
    exact hd.symm
  subst hx
  clear hd
  interval_cases n
  all_goals
    simp [CutField, Run.after, SrAdSensorsData.run, bind, pure, EStateM.bind, EStateM.pure, Run.read, Run.set, Run.byteTo, Run.opt8, Run.opt24,
      readerRead, readByte, zeros, e0, substr, one]

/-- A liquid level sensor: the flags and the number as soon as the first byte is there, whatever it is. -/
theorem C107_liquid (e : SrLiquidLevelSensor) (f a1 a2 v1 v2 v3 v4 : UInt8) (d : SrLiquidLevelSensor) (n : Nat) (hn : n ≤ 6)
    (hd : SrLiquidLevelSensor.decode e [f, a1, a2, v1, v2, v3, v4] = .ok d) :
    let p := (SrLiquidLevelSensor.run.after e ([f, a1, a2, v1, v2, v3, v4].take n)).1
    CutField 0 1 n (p.errorFlag, p.valueUnit, p.rawDataFlag, p.sensorNumber) (d.errorFlag, d.valueUnit, d.rawDataFlag, d.sensorNumber)
      (e.errorFlag, e.valueUnit, e.rawDataFlag, e.sensorNumber) ∧
    CutField 1 3 n p.moduleAddress d.moduleAddress e.moduleAddress ∧ CutField 3 7 n p.sensorData d.sensorData e.sensorData := by
  have h := (after_ok SrLiquidLevelSensor.run e d _).mpr (by rw [liquid_sim]; exact hd)
  have hx : d = (SrLiquidLevelSensor.run.after e [f, a1, a2, v1, v2, v3, v4]).1 := by rw [h]
  subst hx
  cases hp : parseFlags (substr (fmt8 f) 5 8) with
  | error er =>
    simp [SrLiquidLevelSensor.decode, readByte, ok_bind, error_bind, hp] at hd
  | ok v =>
    clear h hd
    interval_cases n
    all_goals
      simp [CutField, Run.after, SrLiquidLevelSensor.run, bind, EStateM.bind, Run.read, Run.set, readerRead, readByte, zeros, hp]

/-- An absolute counter, a dispatcher identity and the fixed part of a response. -/
theorem C107_short (c : SrAbsCntrData) (d : SrDispatcherIdentity) (s : SrResponse) (nested : Bytes → Option Err) (a b x : UInt8) :
    SrAbsCntrData.run.after c [] = ({ c with counterNumber := 0 }, some .eof) ∧
    SrAbsCntrData.run.after c [a] = ({ c with counterNumber := a }, some .eof) ∧
    SrDispatcherIdentity.run.after d [] = ({ d with dispatcherType := 0 }, some .eof) ∧
    SrDispatcherIdentity.run.after d [a] = ({ d with dispatcherType := a }, some .eof) ∧
    (SrResponse.run nested).after s [] = (s, some .eof) ∧
    (SrResponse.run nested).after s [a] = ({ confirmedRecordNumber := le16 [a, 0], recordStatus := 0 }, some .eof) ∧
    (SrResponse.run nested).after s [a, b] = ({ confirmedRecordNumber := le16 [a, b], recordStatus := 0 }, some .eof) ∧
    ∀ r er, nested r = some er → (SrResponse.run nested).after s (a :: b :: x :: r) = ({ confirmedRecordNumber := le16 [a, b], recordStatus := x }, some er) := by
  refine ⟨rfl, rfl, rfl, rfl, rfl, rfl, rfl, fun r er h => ?_⟩
  simp [Run.after, SrResponse.run, bind, EStateM.bind, Run.read, Run.set, Run.byteTo, bufferRead, zeros, h]

theorem readCString_end (u : Bytes) (h : (0 : UInt8) ∉ u) : readCString u = .error .eof := by
  induction u with
  | nil => rfl
  | cons a u ih =>
    rw [List.mem_cons, not_or] at h
    have ha : a ≠ 0 := fun e => h.1 e.symm
    simp [readCString, ha, ih h.2]

/-- The texts of a login are set one after the other, each when its zero byte has come. -/
theorem C107_login (e : SrAuthInfo) (u w s : Bytes) (hu : 0 ∉ u) (hw : 0 ∉ w) (hs : 0 ∉ s) :
    SrAuthInfo.run.after e u = (e, some .eof) ∧
    SrAuthInfo.run.after e (u ++ 0 :: w) = ({ e with userName := u }, some .eof) ∧
    (s ≠ [] → SrAuthInfo.run.after e (u ++ 0 :: (w ++ 0 :: s)) = ({ e with userName := u, userPassword := w }, some .eof)) := by
  refine ⟨?_, ?_, fun h => ?_⟩
  · simp [Run.after, SrAuthInfo.run, bind, EStateM.bind, Run.read, readCString_end u hu]
  · simp [Run.after, SrAuthInfo.run, bind, EStateM.bind, Run.read, Run.set, readCString_append u _ hu, readCString_end w hw]
  · simp [Run.after, SrAuthInfo.run, bind, EStateM.bind, Run.read, Run.set, readCString_append u _ hu, readCString_append w _ hw, readCString_end s hs, h]

/-- The same for the texts of a module, and its fixed part. -/
theorem C107_module (e d : SrModuleData) (t v1 v2 v3 v4 f1 f2 s1 s2 m x : UInt8) (srn dscr : Bytes) (hs : 0 ∉ srn) (hd : 0 ∉ dscr) (n : Nat) (hn : n ≤ 10)
    (h : SrModuleData.decode e ([t, v1, v2, v3, v4, f1, f2, s1, s2, m, x] ++ (srn ++ 0 :: (dscr ++ [0]))) = .ok d) :
    (let p := (SrModuleData.run.after e ([t, v1, v2, v3, v4, f1, f2, s1, s2, m, x].take n)).1
     CutField 0 1 n p.moduleType d.moduleType e.moduleType ∧ CutField 1 5 n p.vendorID d.vendorID e.vendorID ∧
     CutField 5 7 n p.firmwareVersion d.firmwareVersion e.firmwareVersion ∧ CutField 7 9 n p.softwareVersion d.softwareVersion e.softwareVersion ∧
     CutField 7 10 n p.modification d.modification e.modification ∧ (n = 8 ∨ n = 9 → p.modification = 0) ∧
     CutField 9 11 n p.state d.state e.state ∧ (n = 10 → p.state = 0) ∧ p.serialNumber = e.serialNumber ∧ p.description = e.description) ∧
    SrModuleData.run.after e ([t, v1, v2, v3, v4, f1, f2, s1, s2, m, x] ++ srn) =
      ({ d with serialNumber := e.serialNumber, description := e.description }, some .eof) ∧
    SrModuleData.run.after e ([t, v1, v2, v3, v4, f1, f2, s1, s2, m, x] ++ (srn ++ 0 :: dscr)) = ({ d with description := e.description }, some .eof) := by
  have hx : d = { moduleType := t, vendorID := le32 [v1, v2, v3, v4], firmwareVersion := le16 [f1, f2], softwareVersion := le16 [s1, s2]
                  modification := m, state := x, serialNumber := srn, description := dscr } := by
    simp [SrModuleData.decode, readByte, readerRead, zeros, ok_bind, readCString_append srn _ hs, readCString_append dscr _ hd] at h
    exact h.symm
  subst hx
  clear h
  refine ⟨?_, ?_, ?_⟩
  · interval_cases n
    all_goals
      simp [CutField, Run.after, SrModuleData.run, bind, EStateM.bind, Run.read, Run.set, Run.byteTo, readerRead, readByte, zeros]
  · simp [Run.after, SrModuleData.run, bind, EStateM.bind, Run.read, Run.set, Run.byteTo, readerRead, readByte, zeros, readCString_end srn hs]
  · simp [Run.after, SrModuleData.run, bind, EStateM.bind, Run.read, Run.set, Run.byteTo, readerRead, readByte, zeros, readCString_append srn _ hs,
      readCString_end dscr hd]

/-- A terminal identity with all its fields, cut between two of them. -/
theorem C107_terminal (e d : SrTermIdentity) (t hd imei imsi lng nid bs mob : Bytes) (h1 : t.length = 4) (h2 : hd.length = 2) (h3 : imei.length = 15)
    (h4 : imsi.length = 16) (h5 : lng.length = 3) (h6 : nid.length = 3) (h7 : bs.length = 2) (h8 : mob.length = 15)
    (h : SrTermIdentity.decode e (t ++ (255 :: (hd ++ (imei ++ (imsi ++ (lng ++ (nid ++ (bs ++ mob)))))))) = .ok d) :
    SrTermIdentity.run.after e t = ({ e with terminalIdentifier := d.terminalIdentifier }, some .eof) ∧
    SrTermIdentity.run.after e (t ++ [255]) = ({ d with
      homeDispatcherIdentifier := e.homeDispatcherIdentifier, imei := e.imei, imsi := e.imsi, languageCode := e.languageCode,
      networkIdentifier := e.networkIdentifier, bufferSize := e.bufferSize, mobileNumber := e.mobileNumber }, some .eof) ∧
    SrTermIdentity.run.after e (t ++ (255 :: hd)) = ({ d with
      imei := e.imei, imsi := e.imsi, languageCode := e.languageCode,
      networkIdentifier := e.networkIdentifier, bufferSize := e.bufferSize, mobileNumber := e.mobileNumber }, some .eof) ∧
    SrTermIdentity.run.after e (t ++ (255 :: (hd ++ imei))) = ({ d with
      imsi := e.imsi, languageCode := e.languageCode,
      networkIdentifier := e.networkIdentifier, bufferSize := e.bufferSize, mobileNumber := e.mobileNumber }, some .eof) ∧
    SrTermIdentity.run.after e (t ++ (255 :: (hd ++ (imei ++ imsi)))) = ({ d with
      languageCode := e.languageCode,
      networkIdentifier := e.networkIdentifier, bufferSize := e.bufferSize, mobileNumber := e.mobileNumber }, some .eof) ∧
    SrTermIdentity.run.after e (t ++ (255 :: (hd ++ (imei ++ (imsi ++ lng))))) = ({ d with
      networkIdentifier := [0, 0, 0], bufferSize := e.bufferSize, mobileNumber := e.mobileNumber }, some .eof) ∧
    SrTermIdentity.run.after e (t ++ (255 :: (hd ++ (imei ++ (imsi ++ (lng ++ nid)))))) = ({ d with
      bufferSize := e.bufferSize, mobileNumber := e.mobileNumber }, some .eof) ∧
    SrTermIdentity.run.after e (t ++ (255 :: (hd ++ (imei ++ (imsi ++ (lng ++ (nid ++ bs))))))) = ({ d with
      mobileNumber := e.mobileNumber }, some .eof) := by
  have full : ∀ (n : Nat) (x r : Bytes), x.length = n + 1 → readerRead (zeros (n + 1)) (x ++ r) = .ok (x, r) := by
    intro n x r hl
    have : x ++ r ≠ [] := by intro h; have := congrArg List.length h; simp [hl] at this
    simp [readerRead, this, zeros, hl]
  have full' : ∀ (n : Nat) (x : Bytes), x.length = n + 1 → readerRead (zeros (n + 1)) x = .ok (x, []) := by
    intro n x hl
    have := full n x [] hl
    rwa [List.append_nil] at this
  have empty : ∀ n : Nat, readerRead (zeros (n + 1)) [] = .error .eof := fun n => rfl
  have e0 : fmt8 255 = go!"11111111" := by decide
  have hx : d = { terminalIdentifier := le32 t, mne := go!"1", bse := go!"1", nide := go!"1", ssra := go!"1", lngce := go!"1", imsie := go!"1"
                  imeie := go!"1", hdide := go!"1", homeDispatcherIdentifier := le16 hd, imei := imei, imsi := imsi, languageCode := lng
                  networkIdentifier := nid, bufferSize := le16 bs, mobileNumber := mob } := by
    simp [SrTermIdentity.decode, readByte, full 3 t _ h1, full 1 hd _ h2, full 14 imei _ h3, full 15 imsi _ h4, full 2 lng _ h5, full 2 nid _ h6,
      full 1 bs _ h7, full' 14 mob h8, ok_bind, e0, optU16, optN, substr, one] at h
    exact h.symm
  subst hx
  clear h
  refine ⟨?_, ?_, ?_, ?_, ?_, ?_, ?_, ?_⟩ <;>
  simp [Run.after, SrTermIdentity.run, bind, pure, EStateM.bind, EStateM.pure, Run.read, Run.set, Run.opt16, Run.optText, Run.optMade, readByte, e0,
    full 3 t _ h1, full 1 hd _ h2, full 14 imei _ h3, full 15 imsi _ h4, full 2 lng _ h5, full 2 nid _ h6,
    full' 3 t h1, full' 1 hd h2, full' 14 imei h3, full' 15 imsi h4, full' 2 lng h5, full' 2 nid h6,
    full' 1 bs h7, empty, substr, one]
  all_goals rfl

end Egts
