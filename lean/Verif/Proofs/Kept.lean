import Verif.Spec.Kept
import Verif.Proofs.Layout
import Verif.Props.Wire

/-! # What is encoded again of what was decoded: subrecords -/

namespace Egts
open Layout

/-- The `n` bytes at `o`. -/
def seg (b : Bytes) (o n : Nat) : Bytes := (b.drop o).take n

theorem seg_zero (b : Bytes) (o : Nat) : seg b o 0 = [] := rfl

theorem seg_append (b : Bytes) (o n m : Nat) : seg b o n ++ seg b (o + n) m = seg b o (n + m) := by
  unfold seg; rw [List.take_add, List.drop_drop]

theorem seg_length {b : Bytes} {o n : Nat} (h : o + n ≤ b.length) : (seg b o n).length = n := by
  unfold seg; rw [List.length_take, List.length_drop]; omega

theorem seg_full {b : Bytes} {n : Nat} (h : b.length = n) : seg b 0 n = b := by
  subst h; simp [seg]

theorem seg_succ {b : Bytes} {o n : Nat} (h : o < b.length) : seg b o (n + 1) = UInt8.ofNat (byteAt b o) :: seg b (o + 1) n := by
  unfold seg; rw [drop_cons h]; rfl

theorem num_lt (b : Bytes) : ∀ w o, num b o w < 256 ^ w
  | 0, _ => by simp [num]
  | w + 1, o => by
    have h1 := num_lt b w (o + 1)
    have h2 := byteAt_lt b o
    simp only [num, Nat.pow_succ]; omega

theorem seg_num (b : Bytes) : ∀ w o, o + w ≤ b.length → leBytes w (num b o w) = seg b o w
  | 0, _, _ => rfl
  | w + 1, o, h => by
    have h2 := byteAt_lt b o
    rw [leBytes, num, seg_succ (by omega), ← seg_num b w (o + 1) (by omega)]
    have e1 : (byteAt b o + 256 * num b (o + 1) w) % 256 = byteAt b o := by omega
    have e2 : (byteAt b o + 256 * num b (o + 1) w) / 256 = num b (o + 1) w := by omega
    rw [e1, e2]

theorem seg_num2 {b : Bytes} {o : Nat} (h : o + 2 ≤ b.length) : leBytes 2 (UInt16.ofNat (num b o 2)).toNat = seg b o 2 := by
  rw [UInt16.toNat_ofNat', Nat.mod_eq_of_lt (num2_lt b o), seg_num b 2 o h]

theorem seg_num4 {b : Bytes} {o : Nat} (h : o + 4 ≤ b.length) : leBytes 4 (UInt32.ofNat (num b o 4)).toNat = seg b o 4 := by
  rw [UInt32.toNat_ofNat', Nat.mod_eq_of_lt (num4_lt b o), seg_num b 4 o h]

theorem num3_lt (b : Bytes) (o : Nat) : num b o 3 < 2 ^ 32 := by
  have := num_lt b 3 o; omega

theorem seg_num3 {b : Bytes} {o : Nat} (h : o + 3 ≤ b.length) : leBytes 3 (UInt32.ofNat (num b o 3)).toNat = seg b o 3 := by
  rw [UInt32.toNat_ofNat', Nat.mod_eq_of_lt (num3_lt b o), seg_num b 3 o h]

theorem seg_one {b : Bytes} {o : Nat} (h : o + 1 ≤ b.length) : [UInt8.ofNat (byteAt b o)] = seg b o 1 := by
  rw [seg_succ (by omega)]; rfl

theorem num16_full {b : Bytes} {k o : Nat} (h : o + 2 ≤ b.length) : num16 b k o = num b o 2 := by
  rw [num2, num16, if_pos (by omega)]

theorem num24_full {b : Bytes} {s k : Nat} (h : s + 3 * k + 3 ≤ b.length) : num24 b s k = num b (s + 3 * k) 3 := by
  rw [num3, num24]
  simp only [if_pos (show s + 3 * k < b.length by omega), if_pos (show s + 3 * k + 1 < b.length by omega),
    if_pos (show s + 3 * k + 2 < b.length by omega)]

theorem text_full {b : Bytes} {o n : Nat} (h : o + n ≤ b.length) : text b o n = seg b o n := by
  unfold text seg
  rw [show n - (b.length - o) = 0 by omega]; simp [zeros]

/-! ## Optional fields -/

theorem ifSet_bit (n : Nat) (x : Bytes) : ifSet (bitStr n) x = if n = 1 then x else [] := by
  unfold ifSet
  by_cases h : n = 1
  · rw [if_pos h, if_pos ((bitStr_one n).mpr h)]
  · rw [if_neg h, if_neg (bitStr_ne_one h)]

theorem opt_seg {b : Bytes} {v o w : Nat} {x : Bytes} (hv : v < 2) (h : v = 1 → x = seg b o w) : ifSet (bitStr v) x = seg b o (w * v) := by
  rw [ifSet_bit]
  by_cases h1 : v = 1
  · rw [if_pos h1, h h1, h1, Nat.mul_one]
  · rw [if_neg h1, show v = 0 by omega, Nat.mul_zero, seg_zero]

theorem opt_pos {α : Type} {v : Nat} (h : v = 1) (x y : α) : opt v x y = x := if_pos h

theorem bitStr_isBit (n : Nat) : IsBit (bitStr n) := by
  unfold bitStr IsBit; split
  · exact .inr rfl
  · exact .inl rfl

theorem count_flat (b : Bytes) (i s w : Nat) : ∀ n, (List.range n).flatMap (fun k => seg b (s + w * count b i k) (w * bitAt b i k)) = seg b s (w * count b i n)
  | 0 => by simp [count, seg_zero]
  | n + 1 => by
    rw [List.range_succ, List.flatMap_append, count_flat b i s w n, List.flatMap_cons, List.flatMap_nil, List.append_nil, seg_append,
      ← Nat.mul_add]
    rfl

theorem flat8 (f : Nat → Bytes) : (List.range 8).flatMap f = f 0 ++ f 1 ++ f 2 ++ f 3 ++ f 4 ++ f 5 ++ f 6 ++ f 7 := by
  simp [List.range, List.range.loop]

theorem count_mono (b : Bytes) (i : Nat) {j k : Nat} (h : j ≤ k) : count b i j ≤ count b i k := by
  induction h with
  | refl => exact Nat.le_refl _
  | step h ih => simp only [count]; omega

theorem count_step (b : Bytes) (i k n : Nat) (h : k < n) : count b i k + bitAt b i k ≤ count b i n := count_mono b i (show k + 1 ≤ n by omega)

/-! ## Flag bytes -/

theorem flags8 (n : Nat) (h : n < 256) : flagByte [(7, bitStr (n / 2 ^ 7 % 2)), (6, bitStr (n / 2 ^ 6 % 2)), (5, bitStr (n / 2 ^ 5 % 2)), (4, bitStr (n / 2 ^ 4 % 2)),
    (3, bitStr (n / 2 ^ 3 % 2)), (2, bitStr (n / 2 ^ 2 % 2)), (1, bitStr (n / 2 ^ 1 % 2)), (0, bitStr (n / 2 ^ 0 % 2))] = UInt8.ofNat n := by
  have : ∀ n : Fin 256, flagByte [(7, bitStr (n.val / 2 ^ 7 % 2)), (6, bitStr (n.val / 2 ^ 6 % 2)), (5, bitStr (n.val / 2 ^ 5 % 2)), (4, bitStr (n.val / 2 ^ 4 % 2)),
    (3, bitStr (n.val / 2 ^ 3 % 2)), (2, bitStr (n.val / 2 ^ 2 % 2)), (1, bitStr (n.val / 2 ^ 1 % 2)), (0, bitStr (n.val / 2 ^ 0 % 2))] = UInt8.ofNat n.val := by
    decide +kernel
  exact this ⟨n, h⟩

theorem flags5 (n : Nat) (h : n < 256) : flagByte [(4, bitStr (n / 2 ^ 4 % 2)),
    (3, bitStr (n / 2 ^ 3 % 2)), (2, bitStr (n / 2 ^ 2 % 2)), (1, bitStr (n / 2 ^ 1 % 2)), (0, bitStr (n / 2 ^ 0 % 2))] = UInt8.ofNat (n % 32) := by
  have : ∀ n : Fin 256, flagByte [(4, bitStr (n.val / 2 ^ 4 % 2)),
    (3, bitStr (n.val / 2 ^ 3 % 2)), (2, bitStr (n.val / 2 ^ 2 % 2)), (1, bitStr (n.val / 2 ^ 1 % 2)), (0, bitStr (n.val / 2 ^ 0 % 2))] = UInt8.ofNat (n.val % 32) := by
    decide +kernel
  exact this ⟨n, h⟩

theorem flags3 (n : Nat) (h : n < 256) : flagByte [(2, bitStr (n / 2 ^ 2 % 2)), (1, bitStr (n / 2 ^ 1 % 2)), (0, bitStr (n / 2 ^ 0 % 2))] = UInt8.ofNat (n % 8) := by
  have : ∀ n : Fin 256, flagByte [(2, bitStr (n.val / 2 ^ 2 % 2)), (1, bitStr (n.val / 2 ^ 1 % 2)), (0, bitStr (n.val / 2 ^ 0 % 2))] = UInt8.ofNat (n.val % 8) := by
    decide +kernel
  exact this ⟨n, h⟩

theorem flagsLiquid (n : Nat) (h : n < 256) : flagByte [(6, bitStr (n / 2 ^ 6 % 2)), (4, bitStr (n / 2 ^ 5 % 2) ++ bitStr (n / 2 ^ 4 % 2)), (3, bitStr (n / 2 ^ 3 % 2))]
    + UInt8.ofNat (n % 8) = UInt8.ofNat (n % 128) := by
  have : ∀ n : Fin 256, flagByte [(6, bitStr (n.val / 2 ^ 6 % 2)), (4, bitStr (n.val / 2 ^ 5 % 2) ++ bitStr (n.val / 2 ^ 4 % 2)), (3, bitStr (n.val / 2 ^ 3 % 2))]
    + UInt8.ofNat (n.val % 8) = UInt8.ofNat (n.val % 128) := by decide +kernel
  exact this ⟨n, h⟩

theorem u8_inj {m n : Nat} (hm : m < 256) (hn : n < 256) : UInt8.ofNat m = UInt8.ofNat n ↔ m = n := by
  constructor
  · intro h
    have := congrArg UInt8.toNat h
    rwa [UInt8.toNat_ofNat', UInt8.toNat_ofNat', Nat.mod_eq_of_lt hm, Nat.mod_eq_of_lt hn] at this
  · rintro rfl; rfl

/-- A masked first byte and the rest. -/
theorem masked_iff {b : Bytes} {n m : Nat} (hn : n + 1 ≤ b.length) :
    UInt8.ofNat (byteAt b 0 % m) :: seg b 1 n = b ↔ b.length = n + 1 ∧ byteAt b 0 % m = byteAt b 0 := by
  have hb := byteAt_lt b 0
  have hm : byteAt b 0 % m < 256 := Nat.lt_of_le_of_lt (Nat.mod_le _ _) hb
  have hc : b = UInt8.ofNat (byteAt b 0) :: b.drop 1 := by
    have := drop_cons (b := b) (o := 0) (by omega)
    simpa using this
  constructor
  · intro h
    have hl := congrArg List.length h
    rw [List.length_cons, seg_length (by omega)] at hl
    refine ⟨by omega, ?_⟩
    rw [hc] at h
    simp only [List.cons.injEq] at h
    rw [← hc] at h
    exact (u8_inj hm hb).mp h.1
  · rintro ⟨h1, h2⟩
    rw [h2]
    conv => rhs; rw [hc]
    congr 1
    unfold seg; rw [List.take_of_length_le]; rw [List.length_drop]; omega

theorem seg_iff {b : Bytes} {n : Nat} (hn : n ≤ b.length) : seg b 0 n = b ↔ b.length = n := by
  constructor
  · intro h; have := congrArg List.length h; rw [seg_length (by omega)] at this; omega
  · exact seg_full

/-! ## The kinds -/

/-- What is said about the data `b` of a subrecord: it can be encoded, what comes is not longer, and when it is the same. -/
def Again (env : Env) (d : SubData) (b : Bytes) (kept : Prop) : Prop := ∃ w, d.encode env = .ok w ∧ w.length ≤ b.length ∧ (w = b ↔ kept)

theorem again_seg {env : Env} {d : SubData} {b : Bytes} {n : Nat} (h : d.encode env = .ok (seg b 0 n)) (hn : n ≤ b.length) :
    Again env d b (b.length = n) := ⟨_, h, by rw [seg_length (by omega)]; omega, seg_iff hn⟩

theorem again_masked {env : Env} {d : SubData} {b : Bytes} {n m : Nat} (hm : 0 < m) (h : d.encode env = .ok (UInt8.ofNat (byteAt b 0 % m) :: seg b 1 n)) (hn : n + 1 ≤ b.length) :
    Again env d b (b.length = n + 1 ∧ byteAt b 0 < m) := by
  refine ⟨_, h, by rw [List.length_cons, seg_length (by omega)]; omega, ?_⟩
  rw [masked_iff hn]
  constructor
  · rintro ⟨h1, h2⟩; exact ⟨h1, by rw [← h2]; exact Nat.mod_lt _ hm⟩
  · rintro ⟨h1, h2⟩; exact ⟨h1, Nat.mod_eq_of_lt h2⟩

theorem again_resp (env : Env) (b : Bytes) (h : 3 ≤ b.length) : Again env (.resp (SrResponse.read b)) b (b.length = 3) := by
  refine again_seg ?_ h
  show (SrResponse.read b).encode = _
  rw [(C64_response env _ {}).1, SrResponse.wire, SrResponse.read, seg_num2 (by omega), seg_one (by omega), show (2 : Nat) = 0 + 2 from rfl, seg_append]

theorem again_result (env : Env) (b : Bytes) (h : 1 ≤ b.length) : Again env (.result (SrResultCode.read b)) b (b.length = 1) := by
  refine again_seg ?_ h
  show (SrResultCode.read b).encode = _
  rw [(C64_result_code _ {} []).1, SrResultCode.wire, SrResultCode.read, seg_one (by omega)]

theorem again_absCntr (env : Env) (b : Bytes) (h : 4 ≤ b.length) : Again env (.absCntr (SrAbsCntrData.read b)) b (b.length = 4) := by
  refine again_seg ?_ h
  show (SrAbsCntrData.read b).encode = _
  rw [(C64_abs_counter _ {} []).1, SrAbsCntrData.wire, SrAbsCntrData.read, seg_one (by omega), seg_num3 (by omega), show (1 : Nat) = 0 + 1 from rfl, seg_append]

theorem again_absAn (env : Env) (b : Bytes) (h : 4 ≤ b.length) : Again env (.absAn (SrAbsAnSensData.read b)) b (b.length = 4) := by
  refine again_seg ?_ h
  show (SrAbsAnSensData.read b).encode = _
  rw [(C64_abs_analog _ {} []).1, SrAbsAnSensData.wire, SrAbsAnSensData.read, seg_one (by omega), seg_num3 (by omega), show (1 : Nat) = 0 + 1 from rfl, seg_append]

theorem again_disp (env : Env) (b : Bytes) (h : 5 ≤ b.length) : Again env (.disp (SrDispatcherIdentity.read b)) b (5 ≤ b.length) := by
  have e : (SubData.disp (SrDispatcherIdentity.read b)).encode env = .ok (seg b 0 b.length) := by
    show (SrDispatcherIdentity.read b).encode = _
    rw [(C64_dispatcher_identity _ {}).1, SrDispatcherIdentity.wire, SrDispatcherIdentity.read, seg_one (by omega), seg_num4 (by omega),
      show (1 : Nat) = 0 + 1 from rfl, seg_append]
    simp only [seg]
    simp [List.take_append_drop]
  refine ⟨_, e, by rw [seg_length (by omega)], ?_⟩
  rw [seg_full rfl]
  exact ⟨fun _ => h, fun _ => rfl⟩

theorem again_state (env : Env) (b : Bytes) (h : 5 ≤ b.length) : Again env (.state (SrStateData.read b)) b (b.length = 5 ∧ byteAt b 4 < 8) := by
  have e : (SubData.state (SrStateData.read b)).encode env = .ok (seg b 0 4 ++ [UInt8.ofNat (byteAt b 4 % 8)]) := by
    show (SrStateData.read b).encode = _
    rw [(C64_state_data _ {} [] ⟨bitStr_isBit _, bitStr_isBit _, bitStr_isBit _⟩).1, SrStateData.wire, SrStateData.read]
    simp only [bitAt, flags3 _ (byteAt_lt b 4)]
    rw [seg_succ (by omega), seg_succ (by omega), seg_succ (by omega), seg_succ (by omega), seg_zero]; rfl
  refine ⟨_, e, by rw [List.length_append, seg_length (by omega)]; simpa using h, ?_⟩
  have hb := byteAt_lt b 4
  constructor
  · intro hw
    have hl : b.length = 5 := by rw [← hw, List.length_append, seg_length (by omega)]; rfl
    refine ⟨hl, ?_⟩
    have := congrArg (fun x => byteAt x 4) hw
    simp only [byteAt] at this
    rw [List.getD_eq_getElem?_getD, List.getElem?_append_right (by rw [seg_length (by omega)]), seg_length (by omega)] at this
    simp at this
    have e4 : byteAt b 4 = (b[4]?.getD 0).toNat := by rw [byteAt, List.getD_eq_getElem?_getD]
    rw [byteAt, List.getD_eq_getElem?_getD]
    omega
  · rintro ⟨h1, h2⟩
    rw [Nat.mod_eq_of_lt h2, seg_one (by omega), show (4 : Nat) = 0 + 4 from rfl, seg_append, seg_full h1]

theorem again_liquid (env : Env) (b : Bytes) (h : 7 ≤ b.length) : Again env (.liquid (SrLiquidLevelSensor.read b)) b (b.length = 7 ∧ byteAt b 0 < 128) := by
  refine again_masked (by omega) ?_ h
  show (SrLiquidLevelSensor.read b).encode = _
  have hwf : (SrLiquidLevelSensor.read b).WF := by
    refine ⟨bitStr_isBit _, ?_, bitStr_isBit _, ?_⟩
    · show IsBits2 (bitStr (bitAt b 0 5) ++ bitStr (bitAt b 0 4))
      rcases bitStr_isBit (bitAt b 0 5) with h | h <;> rcases bitStr_isBit (bitAt b 0 4) with h' | h' <;> rw [h, h'] <;> decide
    · show UInt8.ofNat (byteAt b 0 % 8) < 8
      rw [UInt8.lt_iff_toNat_lt, UInt8.toNat_ofNat']
      show _ < 8
      omega
  rw [(C64_liquid_level _ {} [] hwf).1, SrLiquidLevelSensor.wire, SrLiquidLevelSensor.read]
  simp only [bitAt, flagsLiquid _ (byteAt_lt b 0), seg_num2 (show 1 + 2 ≤ b.length by omega), seg_num4 (show 3 + 4 ≤ b.length by omega)]
  rw [List.append_assoc, show (3 : Nat) = 1 + 2 from rfl, seg_append]; rfl

theorem again_extPos (env : Env) (b : Bytes) (h : sizeExtPos b ≤ b.length) :
    Again env (.extPos (SrExtPosData.read {} b)) b (b.length = sizeExtPos b ∧ byteAt b 0 < 32) := by
  have hv := bitAt_lt b 0 0
  have hh := bitAt_lt b 0 1
  have hp := bitAt_lt b 0 2
  have hs := bitAt_lt b 0 3
  have hn := bitAt_lt b 0 4
  have hsz : sizeExtPos b = (2 * bitAt b 0 0 + 2 * bitAt b 0 1 + 2 * bitAt b 0 2 + 1 * bitAt b 0 3 + 2 * bitAt b 0 4) + 1 := by unfold sizeExtPos; omega
  rw [hsz] at h ⊢
  refine again_masked (by omega) ?_ h
  show (SrExtPosData.read {} b).encode = _
  have hwf : (SrExtPosData.read {} b).WF := ⟨bitStr_isBit _, bitStr_isBit _, bitStr_isBit _, bitStr_isBit _, bitStr_isBit _⟩
  rw [(C64_ext_pos _ {} [] hwf).1, SrExtPosData.wire]
  have fl : flagByte [(4, (SrExtPosData.read {} b).nsfe), (3, (SrExtPosData.read {} b).sfe), (2, (SrExtPosData.read {} b).pfe),
      (1, (SrExtPosData.read {} b).hfe), (0, (SrExtPosData.read {} b).vfe)] = UInt8.ofNat (byteAt b 0 % 32) := flags5 _ (byteAt_lt b 0)
  have f1 : ifSet (SrExtPosData.read {} b).vfe (leBytes 2 (SrExtPosData.read {} b).vdop.toNat) = seg b 1 (2 * bitAt b 0 0) := by
    refine opt_seg hv fun e => ?_
    show leBytes 2 (opt (bitAt b 0 0) _ _ : UInt16).toNat = _
    rw [opt_pos e, num16_full (by omega), seg_num2 (by omega)]
  have f2 : ifSet (SrExtPosData.read {} b).hfe (leBytes 2 (SrExtPosData.read {} b).hdop.toNat) = seg b (1 + 2 * bitAt b 0 0) (2 * bitAt b 0 1) := by
    refine opt_seg hh fun e => ?_
    show leBytes 2 (opt (bitAt b 0 1) _ _ : UInt16).toNat = _
    rw [opt_pos e, num16_full (by omega), seg_num2 (by omega)]
  have f3 : ifSet (SrExtPosData.read {} b).pfe (leBytes 2 (SrExtPosData.read {} b).pdop.toNat) = seg b (1 + (2 * bitAt b 0 0 + 2 * bitAt b 0 1)) (2 * bitAt b 0 2) := by
    refine opt_seg hp fun e => ?_
    show leBytes 2 (opt (bitAt b 0 2) _ _ : UInt16).toNat = _
    rw [opt_pos e, num16_full (by omega), seg_num2 (by omega), Nat.mul_add]
  have f4 : ifSet (SrExtPosData.read {} b).sfe [(SrExtPosData.read {} b).satellites] = seg b (1 + (2 * bitAt b 0 0 + 2 * bitAt b 0 1 + 2 * bitAt b 0 2)) (1 * bitAt b 0 3) := by
    refine opt_seg hs fun e => ?_
    show [opt (bitAt b 0 3) _ _] = _
    rw [opt_pos e, seg_one (by omega), Nat.mul_add, Nat.mul_add]
  have f5 : ifSet (SrExtPosData.read {} b).nsfe (leBytes 2 (SrExtPosData.read {} b).navigationSystem.toNat) =
      seg b (1 + (2 * bitAt b 0 0 + 2 * bitAt b 0 1 + 2 * bitAt b 0 2 + 1 * bitAt b 0 3)) (2 * bitAt b 0 4) := by
    refine opt_seg hn fun e => ?_
    show leBytes 2 (opt (bitAt b 0 4) _ _ : UInt16).toNat = _
    rw [opt_pos e, num16_full (by omega), seg_num2 (by omega)]
    congr 1; omega
  rw [fl, f1, f2, f3, f4, f5]
  simp only [List.append_assoc]
  rw [List.singleton_append]
  congr 2
  simp only [← List.append_assoc]
  rw [seg_append, seg_append, seg_append, seg_append]

theorem again_term (env : Env) (b : Bytes) (h : sizeTerm b ≤ b.length) : Again env (.term (SrTermIdentity.read {} b)) b (b.length = sizeTerm b) := by
  have h0 := bitAt_lt b 4 0
  have h1 := bitAt_lt b 4 1
  have h2 := bitAt_lt b 4 2
  have h3 := bitAt_lt b 4 3
  have h5 := bitAt_lt b 4 5
  have h6 := bitAt_lt b 4 6
  have h7 := bitAt_lt b 4 7
  have hl : sizeTerm b = 5 + 2 * bitAt b 4 0 + 15 * bitAt b 4 1 + 16 * bitAt b 4 2 + 3 * bitAt b 4 3 + 3 * bitAt b 4 5 + 2 * bitAt b 4 6 + 15 * bitAt b 4 7 := rfl
  refine again_seg ?_ h
  rw [hl] at h
  show (SrTermIdentity.read {} b).encode = _
  have f0 : ifSet (SrTermIdentity.read {} b).hdide (leBytes 2 (SrTermIdentity.read {} b).homeDispatcherIdentifier.toNat) = seg b 5 (2 * bitAt b 4 0) := by
    refine opt_seg h0 fun e => ?_
    show leBytes 2 (opt (bitAt b 4 0) (UInt16.ofNat (num b 5 2)) _).toNat = _
    rw [opt_pos e, seg_num2 (by omega)]
  have f1 : ifSet (SrTermIdentity.read {} b).imeie (SrTermIdentity.read {} b).imei = seg b (5 + 2 * bitAt b 4 0) (15 * bitAt b 4 1) := by
    refine opt_seg h1 fun e => ?_
    show opt (bitAt b 4 1) (text b (5 + 2 * bitAt b 4 0) 15) _ = _
    rw [opt_pos e, text_full (by omega)]
  have f2 : ifSet (SrTermIdentity.read {} b).imsie (SrTermIdentity.read {} b).imsi = seg b (5 + 2 * bitAt b 4 0 + 15 * bitAt b 4 1) (16 * bitAt b 4 2) := by
    refine opt_seg h2 fun e => ?_
    show opt (bitAt b 4 2) (text b (5 + 2 * bitAt b 4 0 + 15 * bitAt b 4 1) 16) _ = _
    rw [opt_pos e, text_full (by omega)]
  have f3 : ifSet (SrTermIdentity.read {} b).lngce (SrTermIdentity.read {} b).languageCode =
      seg b (5 + 2 * bitAt b 4 0 + 15 * bitAt b 4 1 + 16 * bitAt b 4 2) (3 * bitAt b 4 3) := by
    refine opt_seg h3 fun e => ?_
    show opt (bitAt b 4 3) (text b (5 + 2 * bitAt b 4 0 + 15 * bitAt b 4 1 + 16 * bitAt b 4 2) 3) _ = _
    rw [opt_pos e, text_full (by omega)]
  have f5 : ifSet (SrTermIdentity.read {} b).nide (SrTermIdentity.read {} b).networkIdentifier =
      seg b (5 + 2 * bitAt b 4 0 + 15 * bitAt b 4 1 + 16 * bitAt b 4 2 + 3 * bitAt b 4 3) (3 * bitAt b 4 5) := by
    refine opt_seg h5 fun e => ?_
    show opt (bitAt b 4 5) (text b (5 + 2 * bitAt b 4 0 + 15 * bitAt b 4 1 + 16 * bitAt b 4 2 + 3 * bitAt b 4 3) 3) _ = _
    rw [opt_pos e, text_full (by omega)]
  have f6 : ifSet (SrTermIdentity.read {} b).bse (leBytes 2 (SrTermIdentity.read {} b).bufferSize.toNat) =
      seg b (5 + 2 * bitAt b 4 0 + 15 * bitAt b 4 1 + 16 * bitAt b 4 2 + 3 * bitAt b 4 3 + 3 * bitAt b 4 5) (2 * bitAt b 4 6) := by
    refine opt_seg h6 fun e => ?_
    show leBytes 2 (opt (bitAt b 4 6) (UInt16.ofNat (num b (5 + 2 * bitAt b 4 0 + 15 * bitAt b 4 1 + 16 * bitAt b 4 2 + 3 * bitAt b 4 3 + 3 * bitAt b 4 5) 2)) _).toNat = _
    rw [opt_pos e, seg_num2 (by omega)]
  have f7 : ifSet (SrTermIdentity.read {} b).mne (SrTermIdentity.read {} b).mobileNumber =
      seg b (5 + 2 * bitAt b 4 0 + 15 * bitAt b 4 1 + 16 * bitAt b 4 2 + 3 * bitAt b 4 3 + 3 * bitAt b 4 5 + 2 * bitAt b 4 6) (15 * bitAt b 4 7) := by
    refine opt_seg h7 fun e => ?_
    show opt (bitAt b 4 7) (text b (5 + 2 * bitAt b 4 0 + 15 * bitAt b 4 1 + 16 * bitAt b 4 2 + 3 * bitAt b 4 3 + 3 * bitAt b 4 5 + 2 * bitAt b 4 6) 15) _ = _
    rw [opt_pos e, text_full (by omega)]
  have fl : [flagByte [(7, (SrTermIdentity.read {} b).mne), (6, (SrTermIdentity.read {} b).bse), (5, (SrTermIdentity.read {} b).nide), (4, (SrTermIdentity.read {} b).ssra),
      (3, (SrTermIdentity.read {} b).lngce), (2, (SrTermIdentity.read {} b).imsie), (1, (SrTermIdentity.read {} b).imeie), (0, (SrTermIdentity.read {} b).hdide)]] =
      seg b 4 1 := by
    rw [← seg_one (by omega)]; congr 1; exact flags8 _ (byteAt_lt b 4)
  have ft : leBytes 4 (SrTermIdentity.read {} b).terminalIdentifier.toNat = seg b 0 4 := seg_num4 (by omega)
  have hwf : (SrTermIdentity.read {} b).WF := by
    have tl : ∀ o n, (text b o n).length = n := by
      intro o n; unfold text; rw [List.length_append, List.length_take, List.length_drop, zeros_length]; omega
    refine ⟨bitStr_isBit _, bitStr_isBit _, bitStr_isBit _, bitStr_isBit _, bitStr_isBit _, bitStr_isBit _, bitStr_isBit _, bitStr_isBit _, ?_, ?_, ?_, ?_, ?_⟩ <;>
      intro e <;> have e' := (bitStr_one _).mp e
    · show (opt (bitAt b 4 1) _ _ : Bytes).length = _; rw [opt_pos e', tl]
    · show (opt (bitAt b 4 2) _ _ : Bytes).length = _; rw [opt_pos e', tl]
    · show (opt (bitAt b 4 3) _ _ : Bytes).length = _; rw [opt_pos e', tl]
    · show (opt (bitAt b 4 5) _ _ : Bytes).length = _; rw [opt_pos e', tl]
    · show (opt (bitAt b 4 7) _ _ : Bytes).length = _; rw [opt_pos e', tl]
  rw [(C64_term_identity _ {} [] hwf).1, SrTermIdentity.wire, ft, fl, f0, f1, f2, f3, f5, f6, f7, hl]
  have g := seg_append b 0 4 1
  have g0 := seg_append b 0 5 (2 * bitAt b 4 0)
  rw [Nat.zero_add] at g g0
  rw [g, g0]
  have a1 : ∀ n m, seg b 0 n ++ seg b n m = seg b 0 (n + m) := fun n m => by
    have := seg_append b 0 n m; rwa [Nat.zero_add] at this
  rw [a1, a1, a1, a1, a1, a1]

end Egts
