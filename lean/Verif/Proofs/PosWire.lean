import Verif.Proofs.Pos
import Verif.Spec.PosWire

/-! # Exact meaning of the position decoder on arbitrary bytes -/

namespace Egts

theorem pos_len (d0 y : SrPosData) (b : Bytes) (h : SrPosData.decode d0 b = .ok y) : 21 ≤ b.length := by
  rcases b with _ | ⟨b0, _ | ⟨b1, _ | ⟨b2, _ | ⟨b3, _ | ⟨b4, _ | ⟨b5, _ | ⟨b6, _ | ⟨b7, _ | ⟨b8, _ | ⟨b9, _ | ⟨b10,
    _ | ⟨b11, _ | ⟨b12, _ | ⟨b13, _ | ⟨b14, _ | ⟨b15, _ | ⟨b16, _ | ⟨b17, _ | ⟨b18, _ | ⟨b19, _ | ⟨b20, b⟩⟩⟩⟩⟩⟩⟩⟩⟩⟩⟩⟩⟩⟩⟩⟩⟩⟩⟩⟩⟩
  all_goals first
    | (simp only [List.length_cons]; omega)
    | (simp [SrPosData.decode, readerRead, readByte, zeros, error_bind, ok_bind, parse_speed] at h)

theorem bitStr_char (m i : Nat) : [bitChar m i] = bitStr (m / 2 ^ i % 2) := by
  rw [bitChar, bitStr]
  split <;> rfl

theorem dirh_nat (x y : UInt8) : ((UInt16.ofNat (x.toNat + 256 * y.toNat) >>> 15) &&& 1).toUInt8.toNat = y.toNat / 128 := by
  have hx := x.toNat_lt; have hy := y.toNat_lt
  simp only [UInt16.toNat_toUInt8, UInt16.toNat_and, UInt16.toNat_shiftRight, UInt16.toNat_ofNat']
  show ((((x.toNat + 256 * y.toNat) % 65536) >>> 15) &&& 1) % 256 = _
  rw [Nat.and_one_is_mod, Nat.shiftRight_eq_div_pow]
  omega

theorem alts_nat (x y : UInt8) : ((UInt16.ofNat (x.toNat + 256 * y.toNat) >>> 14) &&& 1).toUInt8.toNat = y.toNat / 64 % 2 := by
  have hx := x.toNat_lt; have hy := y.toNat_lt
  simp only [UInt16.toNat_toUInt8, UInt16.toNat_and, UInt16.toNat_shiftRight, UInt16.toNat_ofNat']
  show ((((x.toNat + 256 * y.toNat) % 65536) >>> 14) &&& 1) % 256 = _
  rw [Nat.and_one_is_mod, Nat.shiftRight_eq_div_pow]
  omega

theorem dir_or : ∀ c : Fin 256, ∀ d : Fin 2, UInt8.ofNat c.val ||| (UInt8.ofNat d.val <<< 7) =
    UInt8.ofNat (if d.val = 1 then 128 + c.val % 128 else c.val) := by
  decide +kernel

theorem pos_wire (d0 : SrPosData) (b : Bytes) (h : 21 ≤ b.length) (ha : PosWire.flag b 7 = 1 → 22 ≤ b.length) :
    SrPosData.decode d0 b = .ok (PosWire.record d0 b) := by
  rcases b with _ | ⟨b0, _ | ⟨b1, _ | ⟨b2, _ | ⟨b3, _ | ⟨b4, _ | ⟨b5, _ | ⟨b6, _ | ⟨b7, _ | ⟨b8, _ | ⟨b9, _ | ⟨b10,
    _ | ⟨b11, _ | ⟨b12, _ | ⟨b13, _ | ⟨b14, _ | ⟨b15, _ | ⟨b16, _ | ⟨b17, _ | ⟨b18, _ | ⟨b19, _ | ⟨b20, r⟩⟩⟩⟩⟩⟩⟩⟩⟩⟩⟩⟩⟩⟩⟩⟩⟩⟩⟩⟩⟩
  all_goals first
    | (exfalso; simp at h; done)
    | skip
  have t : ∀ a b c d : UInt8, (UInt32.ofNat (a.toNat + 256 * b.toNat + 65536 * c.toNat + 16777216 * d.toNat)).toNat
      = a.toNat + 256 * b.toNat + 65536 * c.toNat + 16777216 * d.toNat := by
    intro a b c d
    have := a.toNat_lt; have := b.toNat_lt; have := c.toNat_lt; have := d.toNat_lt
    rw [UInt32.toNat_ofNat']; omega
  have hw : (UInt16.ofNat (b13.toNat + 256 * b14.toNat)).toNat = b13.toNat + 256 * b14.toNat := by
    have := b13.toNat_lt; have := b14.toNat_lt
    rw [UInt16.toNat_ofNat']; omega
  have e1 : ((UInt16.ofNat (b13.toNat + 256 * b14.toNat) >>> 15) &&& 1).toUInt8 = UInt8.ofNat (b14.toNat / 128) :=
    UInt8.toNat_inj.mp (by rw [dirh_nat]; have := b14.toNat_lt; rw [UInt8.toNat_ofNat']; omega)
  have e2 : ((UInt16.ofNat (b13.toNat + 256 * b14.toNat) >>> 14) &&& 1).toUInt8 = UInt8.ofNat (b14.toNat / 64 % 2) :=
    UInt8.toNat_inj.mp (by rw [alts_nat]; rw [UInt8.toNat_ofNat']; omega)
  have e3 : b15 ||| (UInt8.ofNat (b14.toNat / 128) <<< 7) =
      UInt8.ofNat (if b14.toNat / 128 = 1 then 128 + b15.toNat % 128 else b15.toNat) := by
    have := dir_or ⟨b15.toNat, b15.toNat_lt⟩ ⟨b14.toNat / 128, by have := b14.toNat_lt; omega⟩
    simpa using this
  have e4 : UInt16.ofNat ((b13.toNat + 256 * b14.toNat) % 16384) / 10 = UInt16.ofNat ((b13.toNat + 256 * b14.toNat) % 16384 / 10) := by
    apply UInt16.toNat_inj.mp
    rw [UInt16.toNat_div, UInt16.toNat_ofNat', UInt16.toNat_ofNat']
    show (b13.toNat + 256 * b14.toNat) % 16384 % 65536 / 10 = (b13.toNat + 256 * b14.toNat) % 16384 / 10 % 65536
    omega
  have f0 : substr (fmt8 b12) 0 1 = bitStr (b12.toNat / 2 ^ 7 % 2) := bitStr_char b12.toNat 7
  have f1 : substr (fmt8 b12) 1 2 = bitStr (b12.toNat / 2 ^ 6 % 2) := bitStr_char b12.toNat 6
  have f2 : substr (fmt8 b12) 2 3 = bitStr (b12.toNat / 2 ^ 5 % 2) := bitStr_char b12.toNat 5
  have f3 : substr (fmt8 b12) 3 4 = bitStr (b12.toNat / 2 ^ 4 % 2) := bitStr_char b12.toNat 4
  have f4 : substr (fmt8 b12) 4 5 = bitStr (b12.toNat / 2 ^ 3 % 2) := bitStr_char b12.toNat 3
  have f5 : substr (fmt8 b12) 5 6 = bitStr (b12.toNat / 2 ^ 2 % 2) := bitStr_char b12.toNat 2
  have f6 : substr (fmt8 b12) 6 7 = bitStr (b12.toNat / 2 ^ 1 % 2) := bitStr_char b12.toNat 1
  have f7 : substr (fmt8 b12) 7 8 = bitStr (b12.toNat / 2 ^ 0 % 2) := bitStr_char b12.toNat 0
  have hb : (bitStr (b12.toNat / 2 ^ 7 % 2) = one) = (b12.toNat / 2 ^ 7 % 2 = 1) := by
    by_cases h : b12.toNat / 2 ^ 7 % 2 = 1
    · simp only [bitStr, h, if_true, one]
    · simp only [bitStr, h, if_false, one, List.cons.injEq, and_true]
      decide
  simp only [SrPosData.decode, readerRead, zeros, List.replicate, List.length_cons, List.length_nil, List.take_succ_cons,
    List.take_zero, List.drop_succ_cons, List.drop_zero, List.drop_nil, reduceCtorEq, if_false, ok_bind, readByte, le32, le16,
    List.append_nil, List.cons_append, List.nil_append, decTime, t, e1, e2, e3, e4, parse_speed, hw, f0, f1, f2, f3, f4, f5, f6, f7, hb,
    pure_eq_ok]
  simp only [PosWire.flag, byteAt, List.getD_cons_succ, List.getD_cons_zero] at ha
  by_cases h7 : b12.toNat / 2 ^ 7 % 2 = 1
  · have hr := ha h7
    rcases r with _ | ⟨c0, _ | ⟨c1, _ | ⟨c2, _ | ⟨c3, r⟩⟩⟩⟩
    · simp at hr
    all_goals
      simp only [h7, if_true, ok_bind, reduceCtorEq, if_false, List.take_succ_cons, List.take_zero, List.take_nil,
        List.drop_succ_cons, List.drop_zero, List.drop_nil, List.length_cons, List.length_nil, List.cons_append, List.nil_append,
        List.append_nil, PosWire.record]
      congr 2
      all_goals first | exact (if_pos h7).symm | exact UInt8.ofNat_toNat.symm
  · simp only [h7, if_false, ok_bind, PosWire.record]
    congr 2
    all_goals first | exact (if_neg h7).symm | exact UInt8.ofNat_toNat.symm

theorem pos_wire_alt (d0 y : SrPosData) (b : Bytes) (h : SrPosData.decode d0 b = .ok y) : PosWire.flag b 7 = 1 → 22 ≤ b.length := by
  intro h7
  have hl := pos_len d0 y b h
  by_contra hn
  have hl2 : b.length = 21 := by omega
  rcases b with _ | ⟨b0, _ | ⟨b1, _ | ⟨b2, _ | ⟨b3, _ | ⟨b4, _ | ⟨b5, _ | ⟨b6, _ | ⟨b7, _ | ⟨b8, _ | ⟨b9, _ | ⟨b10,
    _ | ⟨b11, _ | ⟨b12, _ | ⟨b13, _ | ⟨b14, _ | ⟨b15, _ | ⟨b16, _ | ⟨b17, _ | ⟨b18, _ | ⟨b19, _ | ⟨b20, r⟩⟩⟩⟩⟩⟩⟩⟩⟩⟩⟩⟩⟩⟩⟩⟩⟩⟩⟩⟩⟩
  all_goals first
    | (exfalso; simp at hl; done)
    | skip
  have hr : r = [] := by simpa using hl2
  subst hr
  have f0 : substr (fmt8 b12) 0 1 = one := by
    rw [show substr (fmt8 b12) 0 1 = bitStr (b12.toNat / 2 ^ 7 % 2) from bitStr_char b12.toNat 7]
    have : b12.toNat / 2 ^ 7 % 2 = 1 := h7
    rw [this]; rfl
  simp [SrPosData.decode, readerRead, readByte, zeros, ok_bind, error_bind, parse_speed, f0] at h

end Egts
