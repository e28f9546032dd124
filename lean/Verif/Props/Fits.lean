import Verif.Proofs.Fits

/-!
# C105: `Encode` refuses what cannot be read back

If a value is too large for its place in a packet, `Encode` returns an error. False: the encoders look at
nothing but the flags. Every value that does not fit is sent as another one (`C105_lost`), without an error
(`C105_accepts`); the only exception are numbers of level sensors from 16 on, of which some are refused
(`C105_liquid`). So the values that can be read back are the values that fit, and no others.
-/

namespace Egts

/-- Whatever does not fit is lost: no type under which the bytes may be read gives the values put in. -/
theorem C105_lost (env : Env) (d : SubData) (hf : d.FlagsOK) (hn : ¬ d.Fits) (b : Bytes) (he : d.encode env = .ok b) :
    ∀ (f : Bytes → Except Err SrResponse) (t : UInt8) (len : UInt16) (y : SubData),
      subDecode env f t len b = .ok (some y) → ¬ d.Kept y :=
  fun _ _ _ _ hd hk => hn (kept_fits hf he hd hk)

/-- And it is not refused: `Encode` succeeds whatever the values. -/
theorem C105_accepts (env : Env) (d : SubData) (hf : d.FlagsOK) (hl : ∀ s, d = .liquid s → s.sensorNumber.toNat < 16) :
    ∃ b, d.encode env = .ok b :=
  encode_accepts env d hf hl

/-- The number of a level sensor goes into the same string as the flags before it: it is refused if and only
if all of them together make more than 255, and otherwise, from 8 on, moves the flags. -/
theorem C105_liquid (x y z w : Bool) (n : UInt8) (a : UInt16) (s : UInt32) :
    (∃ b, SrLiquidLevelSensor.encode ⟨bit x, bit y ++ bit z, bit w, n, a, s⟩ = .ok b) ↔
      n.toNat < 8 ∨ (8 * x.toNat + 4 * y.toNat + 2 * z.toNat + w.toNat) * 2 ^ (Nat.log2 n.toNat + 1) + n.toNat < 256 :=
  liquid_accepts x y z w n a s

/-- What fits is read back, except for the faults of C28, C29 and C32 (`Sound`). -/
theorem C105_kept_partial (env : Env) (d : SubData) (hf : d.FlagsOK) (h : d.Fits) (hg : d.OnGlobe) (hs : d.Sound) :
    ∃ b, d.encode env = .ok b ∧ (b.length < 2 ^ 16 → ∃ y,
      subDecode env (srRespDecode env 1) d.code (UInt16.ofNat b.length) b = .ok (some y) ∧ d.Kept y) := by
  have hw := fits_wf (env := env) hf h hg
  obtain ⟨b, y, e1, e2, e3⟩ := sub_rt env 0 d hw d.code (.inl rfl)
  refine ⟨b, e1, fun hb => ⟨y, ?_, same_kept h (sub_sound hw hs e2)⟩⟩
  have : d.wireType d.code = d.code := by unfold SubData.wireType; split <;> rfl
  rw [← this]
  exact e3 hb

theorem speedWord_toNat (s : UInt16) (h a : UInt8) :
    (posSpeedWord s h a).toNat = (10 * s.toNat ||| h.toNat * 2 ^ 15 ||| a.toNat * 2 ^ 14) % 2 ^ 16 := by
  unfold posSpeedWord
  simp only [UInt16.toNat_or, UInt16.toNat_mul, UInt16.toNat_shiftLeft, UInt8.toNat_toUInt16, Nat.or_mod_two_pow]
  rw [Nat.mul_comm]
  have e15 : UInt16.toNat 15 % 16 = 15 := rfl
  have e14 : UInt16.toNat 14 % 16 = 14 := rfl
  rw [e15, e14, Nat.shiftLeft_eq, Nat.shiftLeft_eq]
  rfl

/-- Exactly what is read of a position whose numbers are too large: the odometer and the altitude lose their
upper bits; the speed runs over into the sign of the altitude and the highest bit of the direction. -/
theorem C105_position (env : Env) (d : SrPosData) (h : (SubData.pos d).FlagsOK) :
    ∃ b y, d.encode env = .ok b ∧ SrPosData.decode {} b = .ok y ∧
      y.odometer.toNat = d.odometer.toNat % 2 ^ 24 ∧
      y.altitude.toNat = (if d.alte = go!"1" then d.altitude.toNat % 2 ^ 24 else 0) ∧
      ∃ w, w = (10 * d.speed.toNat ||| d.directionHighestBit.toNat * 2 ^ 15 ||| d.altitudeSign.toNat * 2 ^ 14) % 2 ^ 16 ∧
        y.speed.toNat = w % 2 ^ 14 / 10 ∧ y.altitudeSign.toNat = w / 2 ^ 14 % 2 ∧ y.directionHighestBit.toNat = w / 2 ^ 15 := by
  obtain ⟨b, e1, e2⟩ := pos_any env d {} h
  have hl : ∀ v, (low24 v).toNat = v.toNat % 2 ^ 24 := by
    intro v; unfold low24; rw [UInt32.toNat_ofNat']; omega
  refine ⟨b, _, e1, e2, hl _, ?_, _, rfl, ?_, ?_, ?_⟩
  · simp only [SrPosData.onto', present]
    split
    · exact hl _
    · rfl
  · simp only [SrPosData.onto', UInt16.toNat_div, UInt16.toNat_ofNat', speedWord_toNat]
    show _ % 65536 / 10 = _
    omega
  · simp only [SrPosData.onto', UInt16.toNat_toUInt8, UInt16.toNat_and, UInt16.toNat_shiftRight, speedWord_toNat]
    have e1 : UInt16.toNat 1 = 1 := rfl
    have e14 : UInt16.toNat 14 % 16 = 14 := rfl
    rw [e1, e14, Nat.and_one_is_mod, Nat.shiftRight_eq_div_pow]
    omega
  · simp only [SrPosData.onto', UInt16.toNat_toUInt8, UInt16.toNat_and, UInt16.toNat_shiftRight, speedWord_toNat]
    have e1 : UInt16.toNat 1 = 1 := rfl
    have e15 : UInt16.toNat 15 % 16 = 15 := rfl
    rw [e1, e15, Nat.and_one_is_mod, Nat.shiftRight_eq_div_pow]
    omega

/-- A position with flags, 17 km south of the equator given as a negative latitude, at 1700 km/h, after
20,000,000 (2,000,000 km) on the odometer. -/
def tooLarge : SrPosData :=
  { navigationTime := timeOffset, latitude := -15 / 100, longitude := 37, alte := go!"0", lohs := go!"0", lahs := go!"0", mv := go!"1",
    bb := go!"0", cs := go!"0", fix := go!"1", vld := go!"1", speed := 1700, odometer := 20000000 }

theorem tooLarge_flags : (SubData.pos tooLarge).FlagsOK := by
  refine ⟨?_, ?_, ?_, ?_, ?_, ?_, ?_, ?_⟩ <;> decide

/-- The claim is false: a position that no packet can carry is accepted. -/
theorem C105_false : ¬ ∀ (env : Env) (d : SubData) (b : Bytes), d.FlagsOK → d.encode env = .ok b →
    ∃ t len y, subDecode env (srRespDecode env 1) t len b = .ok (some y) ∧ d.Kept y := by
  intro h
  obtain ⟨b, hb⟩ := C105_accepts ⟨fun _ => 0⟩ (.pos tooLarge) tooLarge_flags (by intro s hs; cases hs)
  obtain ⟨t, len, y, hy, hk⟩ := h _ _ _ tooLarge_flags hb
  refine C105_lost _ _ tooLarge_flags ?_ b hb _ _ _ _ hy hk
  rintro ⟨_, _, _, _, _, h6, _⟩
  revert h6
  decide

/-- It is read as a car at 61 km/h below sea level with 3222784 on the odometer. -/
example (env : Env) : ∃ b y, tooLarge.encode env = .ok b ∧ SrPosData.decode {} b = .ok y ∧
    y.odometer = 3222784 ∧ y.speed = 61 ∧ y.altitudeSign = 1 ∧ y.directionHighestBit = 0 := by
  obtain ⟨b, y, e1, e2, e3, _, w, hw, e4, e5, e6⟩ := C105_position env tooLarge tooLarge_flags
  have hw' : w = 17000 := by rw [hw]; decide
  subst hw'
  refine ⟨b, y, e1, e2, UInt32.toNat_inj.mp (e3.trans rfl), UInt16.toNat_inj.mp (e4.trans rfl), UInt8.toNat_inj.mp (e5.trans rfl), UInt8.toNat_inj.mp (e6.trans rfl)⟩

/-- A negative latitude is accepted, and read as one that is not negative. -/
example (env : Env) : ∃ b y, tooLarge.encode env = .ok b ∧ SrPosData.decode {} b = .ok y ∧ 0 ≤ y.latitude := by
  obtain ⟨b, e1, e2⟩ := pos_any env tooLarge {} tooLarge_flags
  exact ⟨b, _, e1, e2, (decLat_range _).2.1⟩

/-- The number 9 moves the flags of a level sensor: it is read as sensor 1, with another unit. -/
example : SrLiquidLevelSensor.decode {} [57, 0, 0, 0, 0, 0, 0] = .ok ⟨go!"0", go!"11", go!"1", 1, 0, 0⟩ ∧
    SrLiquidLevelSensor.encode ⟨go!"0", go!"01", go!"1", 9, 0, 0⟩ = .ok [57, 0, 0, 0, 0, 0, 0] := by
  constructor <;> with_unfolding_all rfl

/-- Number 16 is refused with an error flag and accepted without. -/
example : (∃ b, SrLiquidLevelSensor.encode ⟨go!"0", go!"00", go!"0", 16, 0, 0⟩ = .ok b) ∧
    ¬ ∃ b, SrLiquidLevelSensor.encode ⟨go!"1", go!"00", go!"0", 16, 0, 0⟩ = .ok b := by
  constructor
  · exact (C105_liquid false false false false 16 0 0).mpr (by decide)
  · exact fun h => absurd ((C105_liquid true false false false 16 0 0).mp h) (by decide)

end Egts
