import Verif.Proofs.After
import Verif.Proofs.Left

/-! # C107: a subrecord whose `Decode` has failed

`X.run.after e b` is what the receiver `e` holds after `e.Decode(b)`, and the error. -/

namespace Egts
open Run

/-- What `Run` adds is the receiver after an error: in all other respects these are the decoders of `Model/Sub.lean`. -/
theorem C107_same_results (b : Bytes) (er : Err) :
    (∀ e d, (SrPosData.run.after e b = (d, none) ↔ SrPosData.decode e b = .ok d) ∧ ((SrPosData.run.after e b).2 = some er ↔ SrPosData.decode e b = .error er)) ∧
    (∀ e d, (SrTermIdentity.run.after e b = (d, none) ↔ SrTermIdentity.decode e b = .ok d) ∧ ((SrTermIdentity.run.after e b).2 = some er ↔ SrTermIdentity.decode e b = .error er)) ∧
    (∀ e d, (SrModuleData.run.after e b = (d, none) ↔ SrModuleData.decode e b = .ok d) ∧ ((SrModuleData.run.after e b).2 = some er ↔ SrModuleData.decode e b = .error er)) ∧
    (∀ e d, (SrResultCode.run.after e b = (d, none) ↔ SrResultCode.decode e b = .ok d) ∧ ((SrResultCode.run.after e b).2 = some er ↔ SrResultCode.decode e b = .error er)) ∧
    (∀ e d, (SrExtPosData.run.after e b = (d, none) ↔ SrExtPosData.decode e b = .ok d) ∧ ((SrExtPosData.run.after e b).2 = some er ↔ SrExtPosData.decode e b = .error er)) ∧
    (∀ e d, (SrAdSensorsData.run.after e b = (d, none) ↔ SrAdSensorsData.decode e b = .ok d) ∧ ((SrAdSensorsData.run.after e b).2 = some er ↔ SrAdSensorsData.decode e b = .error er)) ∧
    (∀ e d, (SrStateData.run.after e b = (d, none) ↔ SrStateData.decode e b = .ok d) ∧ ((SrStateData.run.after e b).2 = some er ↔ SrStateData.decode e b = .error er)) ∧
    (∀ e d, (SrLiquidLevelSensor.run.after e b = (d, none) ↔ SrLiquidLevelSensor.decode e b = .ok d) ∧ ((SrLiquidLevelSensor.run.after e b).2 = some er ↔ SrLiquidLevelSensor.decode e b = .error er)) ∧
    (∀ e d, (SrAbsCntrData.run.after e b = (d, none) ↔ SrAbsCntrData.decode e b = .ok d) ∧ ((SrAbsCntrData.run.after e b).2 = some er ↔ SrAbsCntrData.decode e b = .error er)) ∧
    (∀ e d, (SrAuthInfo.run.after e b = (d, none) ↔ SrAuthInfo.decode e b = .ok d) ∧ ((SrAuthInfo.run.after e b).2 = some er ↔ SrAuthInfo.decode e b = .error er)) ∧
    (∀ e d, (SrCountersData.run.after e b = (d, none) ↔ SrCountersData.decode e b = .ok d) ∧ ((SrCountersData.run.after e b).2 = some er ↔ SrCountersData.decode e b = .error er)) ∧
    (∀ e d, (SrAbsAnSensData.run.after e b = (d, none) ↔ SrAbsAnSensData.decode e b = .ok d) ∧ ((SrAbsAnSensData.run.after e b).2 = some er ↔ SrAbsAnSensData.decode e b = .error er)) ∧
    (∀ e d, (SrDispatcherIdentity.run.after e b = (d, none) ↔ SrDispatcherIdentity.decode e b = .ok d) ∧ ((SrDispatcherIdentity.run.after e b).2 = some er ↔ SrDispatcherIdentity.decode e b = .error er)) := by
  refine ⟨?_, ?_, ?_, ?_, ?_, ?_, ?_, ?_, ?_, ?_, ?_, ?_, ?_⟩ <;> intro e d <;> rw [after_ok, after_err]
  · rw [pos_sim]; exact ⟨.rfl, .rfl⟩
  · rw [term_sim]; exact ⟨.rfl, .rfl⟩
  · rw [module_sim]; exact ⟨.rfl, .rfl⟩
  · rw [result_sim]; exact ⟨.rfl, .rfl⟩
  · rw [extPos_sim]; exact ⟨.rfl, .rfl⟩
  · rw [adSens_sim]; exact ⟨.rfl, .rfl⟩
  · rw [state_sim]; exact ⟨.rfl, .rfl⟩
  · rw [liquid_sim]; exact ⟨.rfl, .rfl⟩
  · rw [absCntr_sim]; exact ⟨.rfl, .rfl⟩
  · rw [auth_sim]; exact ⟨.rfl, .rfl⟩
  · rw [counters_sim]; exact ⟨.rfl, .rfl⟩
  · rw [absAn_sim]; exact ⟨.rfl, .rfl⟩
  · rw [disp_sim]; exact ⟨.rfl, .rfl⟩

/-- The same for `SrResponse`, with what the records inside it give. -/
theorem C107_same_response (env : Env) (k : Nat) (e d : SrResponse) (b : Bytes) (er : Err) :
    let nested := fun r => match sdsLoop (fun b => rdsLoop env (srRespDecode env k) b.length [] b) r.length [] r with
      | .ok _ => none
      | .error er => some er
    ((SrResponse.run nested).after e b = (d, none) ↔ srRespDecode env (k + 1) b = .ok d) ∧
    (((SrResponse.run nested).after e b).2 = some er ↔ srRespDecode env (k + 1) b = .error er) := by
  intro nested
  have h : outcome ((SrResponse.run nested) (e, b)) = srRespDecode env (k + 1) b := by
    rw [resp_sim, srRespDecode]
    cases SrResponse.decodeHead b with
    | error e => rfl
    | ok x =>
      simp only [ok_bind, nested]
      cases sdsLoop (fun b => rdsLoop env (srRespDecode env k) b.length [] b) x.2.length [] x.2 <;> rfl
  rw [after_ok, after_err, h]
  exact ⟨.rfl, .rfl⟩

/-- **False**: a position of which only a part is there is an error, but what is there has been put into the receiver. -/
theorem C107_false :
    ¬ ∀ (e : SrPosData) (b : Bytes) (er : Err), SrPosData.decode e b = .error er → (SrPosData.run.after e b).1 = e := by
  intro h
  have := congrArg SrPosData.navigationTime (h {} [1, 0, 0, 0] .eof (by with_unfolding_all rfl))
  exact absurd this (by decide +kernel)

/-- Exactly what a position that ends after `n` bytes leaves in the receiver `e`, in terms of what the whole of it (`c`, read as `d`)
would have put there: a field whose bytes are all there is that of `d`, a field none of whose bytes is there is that of `e`, but for
the course, the inputs and the source, which are 0 if theirs is the byte at which `Decode` has stopped. -/
theorem C107_position (e d : SrPosData) (c : Bytes) (n : Nat) (hd : SrPosData.decode e c = .ok d) (hn : n ≤ 21) :
    let p := (SrPosData.run.after e (c.take n)).1
    (4 ≤ n → p.navigationTime = d.navigationTime) ∧ (n = 0 → p.navigationTime = e.navigationTime) ∧
    (8 ≤ n → p.latitude = d.latitude) ∧ (n ≤ 4 → p.latitude = e.latitude) ∧
    (12 ≤ n → p.longitude = d.longitude) ∧ (n ≤ 8 → p.longitude = e.longitude) ∧
    (13 ≤ n → (p.alte, p.lohs, p.lahs, p.mv, p.bb, p.cs, p.fix, p.vld) = (d.alte, d.lohs, d.lahs, d.mv, d.bb, d.cs, d.fix, d.vld)) ∧
    (n ≤ 12 → (p.alte, p.lohs, p.lahs, p.mv, p.bb, p.cs, p.fix, p.vld) = (e.alte, e.lohs, e.lahs, e.mv, e.bb, e.cs, e.fix, e.vld)) ∧
    (15 ≤ n → (p.speed, p.directionHighestBit, p.altitudeSign) = (d.speed, d.directionHighestBit, d.altitudeSign)) ∧
    (n ≤ 13 → (p.speed, p.directionHighestBit, p.altitudeSign) = (e.speed, e.directionHighestBit, e.altitudeSign)) ∧
    (16 ≤ n → p.direction = d.direction) ∧ (n ≤ 13 → p.direction = e.direction) ∧ (n = 14 ∨ n = 15 → p.direction = 0) ∧
    (19 ≤ n → p.odometer = d.odometer) ∧ (n ≤ 16 → p.odometer = e.odometer) ∧
    (20 ≤ n → p.digitalInputs = d.digitalInputs) ∧ (n ≤ 16 → p.digitalInputs = e.digitalInputs) ∧
      (17 ≤ n → n ≤ 19 → p.digitalInputs = 0) ∧
    (21 ≤ n → p.source = d.source) ∧ (n ≤ 19 → p.source = e.source) ∧ (n = 20 → p.source = 0) := by
  obtain ⟨⟨a1, a2⟩, ⟨b1, b2⟩, ⟨c1, c2⟩, ⟨d1, d2⟩, ⟨e1, e2⟩, ⟨f1, f2⟩, f3, ⟨g1, g2⟩, ⟨h1, h2⟩, h3, ⟨i1, i2⟩, i3⟩ := pos_cut e d c n hd hn
  exact ⟨a1, fun h => a2 (by omega), b1, b2, c1, c2, d1, d2, e1, e2, f1, f2, f3, g1, g2, h1, h2, h3, i1, i2, i3⟩

/-- In particular: after eight bytes it is at the new latitude and the old longitude, where nothing has ever been. -/
theorem C107_mixture (e d : SrPosData) (c : Bytes) (hd : SrPosData.decode e c = .ok d) :
    ((SrPosData.run.after e (c.take 8)).1.latitude, (SrPosData.run.after e (c.take 8)).1.longitude) = (d.latitude, e.longitude) := by
  obtain ⟨-, -, h, -, -, h', -⟩ := C107_position e d c 8 hd (by omega)
  rw [h (by omega), h' (by omega)]

/-- A failed `Decode` has no effect on what a later one gives, for these kinds: whatever the later one does not set has not been
touched. -/
theorem C107_next_partial (b c : Bytes) (er : Err) :
    (∀ e, SrPosData.decode e b = .error er → SrPosData.decode (SrPosData.run.after e b).1 c = SrPosData.decode e c) ∧
    (∀ e, SrAuthInfo.decode e b = .error er → SrAuthInfo.decode (SrAuthInfo.run.after e b).1 c = SrAuthInfo.decode e c) ∧
    (∀ e, SrModuleData.decode (SrModuleData.run.after e b).1 c = SrModuleData.decode e c) ∧
    (∀ e, SrResultCode.decode (SrResultCode.run.after e b).1 c = SrResultCode.decode e c) ∧
    (∀ e, SrStateData.decode (SrStateData.run.after e b).1 c = SrStateData.decode e c) ∧
    (∀ e, SrLiquidLevelSensor.decode (SrLiquidLevelSensor.run.after e b).1 c = SrLiquidLevelSensor.decode e c) ∧
    (∀ e, SrAbsCntrData.decode (SrAbsCntrData.run.after e b).1 c = SrAbsCntrData.decode e c) ∧
    (∀ e, SrAbsAnSensData.decode (SrAbsAnSensData.run.after e b).1 c = SrAbsAnSensData.decode e c) ∧
    (∀ e, SrDispatcherIdentity.decode (SrDispatcherIdentity.run.after e b).1 c = SrDispatcherIdentity.decode e c) := by
  refine ⟨?_, ?_, fun _ => rfl, fun _ => rfl, fun _ => rfl, fun _ => rfl, fun _ => rfl, fun _ => rfl, fun _ => rfl⟩
  · intro e h
    have := after_spares pos_spares (((C107_same_results b er).1 e {}).2.mpr h)
    obtain ⟨h1, h2⟩ := Prod.mk.inj this
    simp only [SrPosData.decode, h1, h2]
  · intro e h
    have := after_spares auth_spares (s := e) (b := b) (e := er) (by rw [after_err, auth_sim]; exact h)
    simp only [SrAuthInfo.decode, this]

/-- Data too short for an absolute analogue sensor is found out before anything is changed. -/
theorem C107_analogue (e : SrAbsAnSensData) (b : Bytes) (er : Err) (h : SrAbsAnSensData.decode e b = .error er) :
    (SrAbsAnSensData.run.after e b).1 = e :=
  after_spares absAn_spares (p := fun e => e) (by rw [after_err, absAn_sim]; exact h)

/-- **False** of the kinds with optional fields: the precision of the failed subrecord is still there after the next one, which has
none. Without the failed one it would be 0. -/
theorem C107_false_next :
    (∃ (b c : Bytes) (d d' : SrExtPosData), SrExtPosData.decode {} b = .error .eof ∧
      SrExtPosData.decode (SrExtPosData.run.after {} b).1 c = .ok d ∧ SrExtPosData.decode {} c = .ok d' ∧ d.vdop = 7 ∧ d'.vdop = 0) ∧
    (∃ (b c : Bytes) (d d' : SrAdSensorsData), SrAdSensorsData.decode {} b = .error .eof ∧
      SrAdSensorsData.decode (SrAdSensorsData.run.after {} b).1 c = .ok d ∧ SrAdSensorsData.decode {} c = .ok d' ∧ d.adio1 = 7 ∧ d'.adio1 = 0) ∧
    (∃ (b c : Bytes) (d d' : SrCountersData), SrCountersData.decode {} b = .error .eof ∧
      SrCountersData.decode (SrCountersData.run.after {} b).1 c = .ok d ∧ SrCountersData.decode {} c = .ok d' ∧ d.cn3 = 7 ∧ d'.cn3 = 0) ∧
    (∃ (b c : Bytes) (d d' : SrTermIdentity), SrTermIdentity.decode {} b = .error .eof ∧
      SrTermIdentity.decode (SrTermIdentity.run.after {} b).1 c = .ok d ∧ SrTermIdentity.decode {} c = .ok d' ∧
      d.homeDispatcherIdentifier = 7 ∧ d'.homeDispatcherIdentifier = 0) :=
  ⟨⟨[3, 7, 0], [0], _, _, by with_unfolding_all rfl, by with_unfolding_all rfl, by with_unfolding_all rfl, by with_unfolding_all rfl, by with_unfolding_all rfl⟩,
   ⟨[3, 0, 0, 7], [0, 0, 0], _, _, by with_unfolding_all rfl, by with_unfolding_all rfl, by with_unfolding_all rfl, by with_unfolding_all rfl, by with_unfolding_all rfl⟩,
   ⟨[12, 7, 0, 0], [0], _, _, by with_unfolding_all rfl, by with_unfolding_all rfl, by with_unfolding_all rfl, by with_unfolding_all rfl, by with_unfolding_all rfl⟩,
   ⟨[1, 0, 0, 0, 3, 7, 0], [1, 0, 0, 0, 0], _, _, by with_unfolding_all rfl, by with_unfolding_all rfl, by with_unfolding_all rfl, by with_unfolding_all rfl, by with_unfolding_all rfl⟩⟩

/-- The smaller kinds, exactly: where `ReadByte` meets the end, its field becomes 0. A state, -/
theorem C107_state (e : SrStateData) (s m k i : UInt8) :
    SrStateData.run.after e [] = ({ e with state := 0 }, some .eof) ∧
    SrStateData.run.after e [s] = ({ e with state := s, mainPowerSourceVoltage := 0 }, some .eof) ∧
    SrStateData.run.after e [s, m] = ({ e with state := s, mainPowerSourceVoltage := m, backUpBatteryVoltage := 0 }, some .eof) ∧
    SrStateData.run.after e [s, m, k] =
      ({ e with state := s, mainPowerSourceVoltage := m, backUpBatteryVoltage := k, internalBatteryVoltage := 0 }, some .eof) ∧
    SrStateData.run.after e [s, m, k, i] =
      ({ e with state := s, mainPowerSourceVoltage := m, backUpBatteryVoltage := k, internalBatteryVoltage := i }, some .eof) :=
  ⟨rfl, rfl, rfl, rfl, rfl⟩

/-- a result code: no result reads as result 0, which means success, with an error; -/
theorem C107_result (e : SrResultCode) : SrResultCode.run.after e [] = (⟨0⟩, some .eof) := rfl

/-- and a network identifier that is not there becomes three zeros. -/
theorem C107_network (e : SrTermIdentity) (a b c d : UInt8) :
    SrTermIdentity.run.after e [a, b, c, d, 32] =
      ({ e with terminalIdentifier := le32 [a, b, c, d], mne := go!"0", bse := go!"0", nide := go!"1", ssra := go!"0", lngce := go!"0"
                imsie := go!"0", imeie := go!"0", hdide := go!"0", networkIdentifier := [0, 0, 0] }, some .eof) := rfl

/-- A position in Saint Petersburg, then one in the Caucasus cut in the middle. -/
example : (SrPosData.run.after { latitude := 60, longitude := 30 } [0, 0, 0, 0, 0, 0, 0, 128]).1.longitude = 30 ∧
    (SrPosData.run.after { latitude := 60, longitude := 30 } [0, 0, 0, 0, 0, 0, 0, 128]).1.latitude = decLat 0x80000000 :=
  ⟨by with_unfolding_all rfl, by with_unfolding_all rfl⟩

end Egts
