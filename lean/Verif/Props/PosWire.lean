import Verif.Proofs.PosWire

/-! # Position data as received from devices (C35, C36, C61) -/

namespace Egts

/-! ## C61: the position decoder, exactly -/

/-- A position record is accepted exactly when its fixed part is complete and, if the altitude is
announced, at least one byte of it is there; and then it is read as laid out. -/
theorem C61_pos_decode_exact (d0 y : SrPosData) (b : Bytes) :
    SrPosData.decode d0 b = .ok y ↔
      (21 ≤ b.length ∧ (PosWire.hasAltitude b → 22 ≤ b.length)) ∧ y = PosWire.record d0 b := by
  constructor
  · intro h
    have h1 := pos_len d0 y b h
    have h2 := pos_wire_alt d0 y b h
    rw [pos_wire d0 b h1 h2] at h
    cases h
    exact ⟨⟨h1, h2⟩, rfl⟩
  · rintro ⟨⟨h1, h2⟩, rfl⟩
    exact pos_wire d0 b h1 h2

/-- The record of `pos_data` in the repository's test suite. -/
def posBytes : Bytes :=
  [0x55, 0x91, 0x02, 0x10, 0x6F, 0x1C, 0x05, 0x9E, 0x7A, 0xB5, 0x3C, 0x35, 0x01, 0xD0, 0x87, 0x2C, 0x01, 0x00, 0x00,
   0x00, 0x00]

example : ∃ y, SrPosData.decode {} posBytes = .ok y ∧ y.speed = 200 ∧ y.direction = 172 ∧ y.directionHighestBit = 1 ∧
    y.odometer = 1 :=
  ⟨_, (C61_pos_decode_exact _ _ _).mpr ⟨by decide +kernel, rfl⟩, by decide +kernel, by decide +kernel, by decide +kernel,
    by decide +kernel⟩

/-! ## C35 -/

/-- Full statement of C35 (not provable): equal decoded records have equal courses on the wire. -/
theorem C35_false : ∃ b b' y, SrPosData.decode {} b = .ok y ∧ SrPosData.decode {} b' = .ok y ∧
    PosWire.course b = 256 ∧ PosWire.course b' = 384 :=
  ⟨zeros 14 ++ [128, 0] ++ zeros 5, zeros 14 ++ [128, 128] ++ zeros 5, _,
    (C61_pos_decode_exact _ _ _).mpr ⟨by decide +kernel, rfl⟩,
    (C61_pos_decode_exact _ _ _).mpr ⟨by decide +kernel, by decide +kernel⟩, by decide +kernel, by decide +kernel⟩

/-- For courses below 384, hence for all angles, the pair of decoded fields determines the course. -/
theorem C35_course_partial (d0 y : SrPosData) (b : Bytes) (h : SrPosData.decode d0 b = .ok y)
    (hc : PosWire.course b < 384) :
    PosWire.course b = if y.directionHighestBit = 1 then 256 + (y.direction.toNat - 128) else y.direction.toNat := by
  obtain ⟨_, rfl⟩ := (C61_pos_decode_exact d0 y b).mp h
  have h1 : byteAt b 14 < 256 := UInt8.toNat_lt _
  have h2 : byteAt b 15 < 256 := UInt8.toNat_lt _
  have e1 : (PosWire.record d0 b).directionHighestBit = UInt8.ofNat (byteAt b 14 / 128) := rfl
  have e2 : (PosWire.record d0 b).direction =
    UInt8.ofNat (if byteAt b 14 / 128 = 1 then 128 + byteAt b 15 % 128 else byteAt b 15) := rfl
  have e3 : PosWire.course b = byteAt b 14 / 128 * 256 + byteAt b 15 := rfl
  rw [e3] at hc
  rw [e1, e2, e3]
  by_cases hd : byteAt b 14 / 128 = 1
  · rw [hd] at hc ⊢
    rw [if_pos rfl, if_pos (by decide), UInt8.toNat_ofNat']
    omega
  · have hd0 : byteAt b 14 / 128 = 0 := by omega
    rw [hd0] at hc ⊢
    rw [if_neg (by decide), if_neg (by decide), UInt8.toNat_ofNat']
    omega

example : ∃ y, SrPosData.decode {} posBytes = .ok y ∧ PosWire.course posBytes = 300 :=
  ⟨_, (C61_pos_decode_exact _ _ _).mpr ⟨by decide +kernel, rfl⟩, by decide +kernel⟩

/-- Exactly: what the field `Direction`, the only one the receiver stores, is for every course. It is right below 256. -/
theorem C35_direction_exact (d0 y : SrPosData) (b : Bytes) (h : SrPosData.decode d0 b = .ok y) :
    y.direction.toNat = if PosWire.course b < 256 then PosWire.course b else if PosWire.course b < 384 then PosWire.course b - 128
      else PosWire.course b - 256 := by
  obtain ⟨_, rfl⟩ := (C61_pos_decode_exact d0 y b).mp h
  have h1 : byteAt b 14 < 256 := UInt8.toNat_lt _
  have h2 : byteAt b 15 < 256 := UInt8.toNat_lt _
  have e2 : (PosWire.record d0 b).direction =
    UInt8.ofNat (if byteAt b 14 / 128 = 1 then 128 + byteAt b 15 % 128 else byteAt b 15) := rfl
  have e3 : PosWire.course b = byteAt b 14 / 128 * 256 + byteAt b 15 := rfl
  rw [e2, e3, UInt8.toNat_ofNat']
  split <;> split <;> (try split) <;> omega

/-- The `Direction` field alone (the only one the receiver stores) does not even distinguish ordinary
angles: 172 and 300 degrees give the same value. -/
theorem C35_direction_field_ambiguous : ∃ b b' y y', SrPosData.decode {} b = .ok y ∧
    SrPosData.decode {} b' = .ok y' ∧ y.direction = y'.direction ∧ PosWire.course b = 172 ∧ PosWire.course b' = 300 :=
  ⟨zeros 14 ++ [0, 172] ++ zeros 5, zeros 14 ++ [128, 44] ++ zeros 5, _, _,
    (C61_pos_decode_exact _ _ _).mpr ⟨by decide +kernel, rfl⟩,
    (C61_pos_decode_exact _ _ _).mpr ⟨by decide +kernel, rfl⟩, by decide +kernel, by decide +kernel, by decide +kernel⟩

/-! ## C36 -/

/-- Full statement of C36 (not provable): `y.altitude.toNat = PosWire.altitude b` for every record with
an altitude, whatever follows. -/
theorem C36_false : ∃ b y, SrPosData.decode {} b = .ok y ∧ PosWire.hasAltitude b ∧ PosWire.altitude b = 5 ∧
    y.altitude = 16777221 :=
  ⟨zeros 12 ++ [128] ++ zeros 8 ++ [5, 0, 0, 1], _, (C61_pos_decode_exact _ _ _).mpr ⟨by decide +kernel, rfl⟩,
    by decide +kernel, by decide +kernel, by decide +kernel⟩

/-- Exactly: the first source-data byte becomes the top byte of the altitude. -/
theorem C36_altitude_exact (d0 y : SrPosData) (b : Bytes) (h : SrPosData.decode d0 b = .ok y) (ha : PosWire.hasAltitude b) :
    y.altitude.toNat = PosWire.altitude b + 16777216 * byteAt b 24 := by
  obtain ⟨_, rfl⟩ := (C61_pos_decode_exact d0 y b).mp h
  have : PosWire.flag b 7 = 1 := ha
  simp only [PosWire.record, this, if_true]
  have h1 : byteAt b 21 < 256 := UInt8.toNat_lt _
  have h2 : byteAt b 22 < 256 := UInt8.toNat_lt _
  have h3 : byteAt b 23 < 256 := UInt8.toNat_lt _
  have h4 : byteAt b 24 < 256 := UInt8.toNat_lt _
  rw [UInt32.toNat_ofNat', PosWire.altitude]
  omega

/-- The altitude is right when no source data follows. -/
theorem C36_altitude_partial (d0 y : SrPosData) (b : Bytes) (h : SrPosData.decode d0 b = .ok y) (ha : PosWire.hasAltitude b)
    (hl : b.length ≤ 24) : y.altitude.toNat = PosWire.altitude b := by
  rw [C36_altitude_exact d0 y b h ha]
  have : byteAt b 24 = 0 := by
    unfold byteAt
    rw [List.getD_eq_getElem?_getD, List.getElem?_eq_none hl]; rfl
  omega

example : ∃ y, SrPosData.decode {} (zeros 12 ++ [128] ++ zeros 8 ++ [5, 1, 0]) = .ok y ∧ y.altitude = 261 :=
  ⟨_, (C61_pos_decode_exact _ _ _).mpr ⟨by decide +kernel, rfl⟩, by decide +kernel⟩

end Egts
