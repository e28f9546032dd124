import Verif.Proofs.AllocMore

/-! # Frames with nested responses are accepted -/

namespace Egts

open Layout

theorem byteAt_zeros (n i : Nat) : byteAt (zeros n) i = 0 := by
  unfold byteAt zeros
  by_cases h : i < n
  · simp [List.getD_eq_getElem?_getD, h]
  · simp [List.getD_eq_getElem?_getD, h]

theorem zeros_records : ∀ j, ∃ rs, IsRecords (zeros (7 * j)) rs
  | 0 => ⟨[], .nil⟩
  | j + 1 => by
    have hh : ServiceDataRecord.headLength (zeros (7 * (j + 1))) = 7 := by
      unfold ServiceDataRecord.headLength bitAt
      simp [byteAt_zeros]
    have hn : num (zeros (7 * (j + 1))) 0 2 = 0 := by simp [num, byteAt_zeros]
    by_cases hj : j = 0
    · subst hj
      exact ⟨_, .bare _ (by rw [hh, zeros_length])⟩
    · obtain ⟨rs, hrs⟩ := zeros_records j
      refine ⟨_, .cons _ [] rs (by rw [hh, zeros_length]; omega) ?_ ?_⟩
      · rw [hn]
        unfold text
        simp only [List.take_zero, Nat.zero_sub]
        exact .nil
      · rw [hh, hn, drop_zeros, show 7 * (j + 1) - (7 + 0) = 7 * j by omega]
        exact hrs

section

variable (y : Bytes)

theorem nestedHead_length : ServiceDataRecord.headLength ([253, 255, 0, 0, 0, 2, 2] ++ y) = 7 := by
  have h4 : byteAt ([253, 255, 0, 0, 0, 2, 2] ++ y) 4 = 0 := rfl
  unfold ServiceDataRecord.headLength bitAt
  rw [h4]

theorem nestedHead_num : num ([253, 255, 0, 0, 0, 2, 2] ++ y) 0 2 = 65533 := by
  have h0 : byteAt ([253, 255, 0, 0, 0, 2, 2] ++ y) 0 = 253 := rfl
  have h1 : byteAt ([253, 255, 0, 0, 0, 2, 2] ++ y) 1 = 255 := rfl
  simp only [num, Nat.zero_add, h0, h1]

theorem nestedHead_drop : ([253, 255, 0, 0, 0, 2, 2] ++ y).drop 7 = y := rfl

theorem nestedSub_byte : byteAt ([0, 255, 255] ++ y) 0 = 0 := rfl

theorem nestedSub_num : num ([0, 255, 255] ++ y) 1 2 = 65535 := by
  have h0 : byteAt ([0, 255, 255] ++ y) 1 = 255 := rfl
  have h1 : byteAt ([0, 255, 255] ++ y) 2 = 255 := rfl
  simp only [num, h0, h1]

theorem nestedSub_drop : ([0, 255, 255] ++ y).drop 3 = y := rfl

theorem nestedResp_drop : ([1, 0, 0] ++ y).drop 3 = y := rfl

/-- A record that declares 65533 bytes, with a record response in it that takes all of them. -/
theorem nested_record (m : Nat) (x : Bytes) (rs : List ServiceDataRecord) (h : x.length + m = 65527) (hx : IsRecords (x ++ zeros m) rs) (n : Nat)
    (hn : n ≤ m) : ∃ rs', IsRecords ([253, 255, 0, 0, 0, 2, 2] ++ ([0, 255, 255] ++ ([1, 0, 0] ++ (x ++ zeros n)))) rs' := by
  have hl : ([0, 255, 255] ++ ([1, 0, 0] ++ (x ++ zeros n)) : Bytes).length = 6 + x.length + n := by
    simp only [List.length_append, List.length_cons, List.length_nil, zeros_length]; omega
  have hl' : ([253, 255, 0, 0, 0, 2, 2] ++ ([0, 255, 255] ++ ([1, 0, 0] ++ (x ++ zeros n))) : Bytes).length = 13 + x.length + n := by
    rw [List.length_append, hl]; simp only [List.length_cons, List.length_nil]; omega
  have ht : text ([253, 255, 0, 0, 0, 2, 2] ++ ([0, 255, 255] ++ ([1, 0, 0] ++ (x ++ zeros n)))) 7 65533
      = [0, 255, 255] ++ ([1, 0, 0] ++ (x ++ zeros m)) := by
    unfold text
    rw [hl', nestedHead_drop, List.take_of_length_le (by omega)]
    simp only [List.append_assoc, zeros_add]
    rw [show n + (65533 - (13 + x.length + n - 7)) = m by omega]
  have hsl : ([1, 0, 0] ++ (x ++ zeros m) : Bytes).length = 65530 := by
    simp only [List.length_append, List.length_cons, List.length_nil, zeros_length]; omega
  refine ⟨_, .cons _ [⟨0, 65535, some (.resp (SrResponse.read ([1, 0, 0] ++ (x ++ zeros m))))⟩] [] ?_ ?_ ?_⟩
  · rw [nestedHead_length, hl']; omega
  · rw [nestedHead_length, nestedHead_num, ht]
    have key := IsSubrecords.known ([0, 255, 255] ++ ([1, 0, 0] ++ (x ++ zeros m)))
      (.resp (SrResponse.read ([1, 0, 0] ++ (x ++ zeros m)))) [] (by simp only [List.length_append] at hsl ⊢; omega) (by
        rw [nestedSub_byte, nestedSub_num, nestedSub_drop, List.take_of_length_le (by omega)]
        exact .response _ _ rs (by omega) (by rw [nestedResp_drop]; exact hx)) (by
        rw [nestedSub_num, ← List.drop_drop, nestedSub_drop, List.drop_eq_nil_of_le (by omega)]
        exact .nil)
    rw [nestedSub_byte, nestedSub_num] at key
    exact key
  · rw [nestedHead_length, nestedHead_num, List.drop_eq_nil_of_le (by omega)]
    exact .nil

end

theorem nested_records : ∀ d m, (d = 0 → 7 ∣ m) → 13 * d + m ≤ 65540 → ∃ rs, IsRecords (nestedRecords d ++ zeros m) rs
  | 0, m, h, _ => by
    obtain ⟨j, rfl⟩ := h rfl
    exact zeros_records j
  | d + 1, m, _, hm => by
    obtain ⟨rs, hrs⟩ := nested_records d (65527 - 13 * d) (fun h => ⟨9361, by omega⟩) (by omega)
    have e : nestedRecords (d + 1) ++ zeros m = [253, 255, 0, 0, 0, 2, 2] ++ ([0, 255, 255] ++ ([1, 0, 0] ++ (nestedRecords d ++ zeros m))) := by
      simp only [nestedRecords, List.append_assoc]
    rw [e]
    exact nested_record _ _ rs (by rw [nestedRecords_length]; omega) hrs m (by omega)

section

variable (x : Bytes)

/-- The frame, cell by cell. -/
theorem frameAround_cells : frameAround x =
    1 :: 0 :: 0 :: 11 :: 0 :: UInt8.ofNat x.length :: UInt8.ofNat (x.length / 256) :: 7 :: 0 :: 1 ::
      crc8 [1, 0, 0, 11, 0, UInt8.ofNat x.length, UInt8.ofNat (x.length / 256), 7, 0, 1] ::
        (x ++ [UInt8.ofNat (crc16 x).toNat, UInt8.ofNat ((crc16 x).toNat / 256)]) := by
  unfold frameAround
  simp only [List.cons_append, List.nil_append]

theorem frameAround_flags : byteAt (frameAround x) 2 = 0 := by rw [frameAround_cells]; rfl

theorem frameAround_hcsPos : Frame.hcsPos (frameAround x) = 10 := by
  unfold Frame.hcsPos Frame.Routed
  rw [frameAround_flags]; rfl

theorem frameAround_length : (frameAround x).length = x.length + 13 := by
  rw [frameAround_cells]; simp

variable (h : x.length < 65525)
include h

theorem frameAround_fdl : Frame.fdl (frameAround x) = x.length := by
  rw [frameAround_cells]
  show (UInt8.ofNat x.length).toNat + 256 * (UInt8.ofNat (x.length / 256)).toNat = _
  simp only [UInt8.toNat_ofNat', Nat.reducePow]
  omega

omit h in
theorem frameAround_rest : Frame.rest (frameAround x) = x ++ [UInt8.ofNat (crc16 x).toNat, UInt8.ofNat ((crc16 x).toNat / 256)] := by
  unfold Frame.rest
  rw [frameAround_hcsPos, frameAround_cells]; rfl

theorem frameAround_body : Frame.body (frameAround x) = x := by
  unfold Frame.body
  rw [frameAround_fdl x h, frameAround_rest x]
  simp [zeros]

theorem frameAround_ok (sp : Bytes) : FrameOk ⟨frameAround x, sp⟩ := by
  have hf := frameAround_fdl x h
  have hhl : Frame.hl (frameAround x) = 11 := by rw [frameAround_cells]; rfl
  have hp := frameAround_hcsPos x
  have hhe : Frame.headEnd (frameAround x) = 10 := by unfold Frame.headEnd; rw [hhl]; rfl
  have hbe : Frame.bodyEnd (frameAround x) = 11 + x.length := by unfold Frame.bodyEnd; rw [hhl, hf]; omega
  have hl := frameAround_length x
  refine ⟨by rw [hp, hf, hl]; omega, ?_, ?_, by rw [hhl, hbe]; omega, ?_, ?_⟩
  · rw [hhe]; simp only [Slice.all, List.length_append, hl]; omega
  · have e1 : byteAt (frameAround x) 10 = (crc8 [1, 0, 0, 11, 0, UInt8.ofNat x.length, UInt8.ofNat (x.length / 256), 7, 0, 1]).toNat := by
      rw [frameAround_cells]
      generalize crc8 _ = c
      rfl
    have e2 : (Slice.all ⟨frameAround x, sp⟩).take 10 = [1, 0, 0, 11, 0, UInt8.ofNat x.length, UInt8.ofNat (x.length / 256), 7, 0, 1] := by
      simp only [Slice.all]
      rw [frameAround_cells]
      generalize crc8 _ = c
      rfl
    rw [hhe, hp, e1, e2]
  · rw [hbe]; simp only [Slice.all, List.length_append, hl]; omega
  · rw [hbe, hhl]
    have e : ((Slice.all ⟨frameAround x, sp⟩).take (11 + x.length)).drop 11 = x := by
      simp only [Slice.all]
      rw [List.drop_take, frameAround_cells, show 11 + x.length - 11 = x.length by omega]
      simp
    rw [e]
    unfold Frame.sfrcs Frame.after
    rw [frameAround_rest x, hf, List.drop_left]
    show (UInt8.ofNat (crc16 x).toNat).toNat + 256 * (UInt8.ofNat ((crc16 x).toNat / 256)).toNat = _
    have : (crc16 x).toNat < 65536 := (crc16 x).toNat_lt
    simp only [UInt8.toNat_ofNat', Nat.reducePow]
    omega

theorem frameAround_content (key : Option SecretKey) {rs : List ServiceDataRecord} (hr : IsRecords x rs) :
    IsContent key (frameAround x) (.sds rs) := by
  refine ⟨x, ?_, .inl ⟨by rw [frameAround_cells]; rfl, rs, hr, rfl⟩⟩
  unfold Frame.clear
  rw [if_neg (by unfold Frame.Encrypted; rw [frameAround_flags]; decide), frameAround_body x h]

end

end Egts
