import Verif.Spec.Wire
import Verif.Proofs.Depth

/-! # Lemmas for the wire layouts -/

namespace Egts

theorem leBytes2 (v : UInt16) : leBytes 2 v.toNat = put16 v := by
  have := v.toNat_lt
  simp only [leBytes, put16, List.cons.injEq, and_true, true_and]
  congr 1; omega

theorem leBytes4 (v : UInt32) : leBytes 4 v.toNat = put32 v := by
  have := v.toNat_lt
  simp only [leBytes, put32, List.cons.injEq, and_true, true_and]
  refine ⟨?_, ?_⟩ <;> congr 1 <;> omega

theorem leBytes3 (v : UInt32) : leBytes 3 v.toNat = put24 v := by
  simp only [leBytes, put24, put32, List.take_succ_cons, List.take_zero, List.cons.injEq, and_true, true_and]
  congr 1; omega

theorem ifSet_eq (f b : Bytes) : ifSet f b = optBytes f b := rfl

theorem flagByte8 : ∀ b7 b6 b5 b4 b3 b2 b1 b0 : Bool,
    flagByte [(7, bit b7), (6, bit b6), (5, bit b5), (4, bit b4), (3, bit b3), (2, bit b2), (1, bit b1), (0, bit b0)] =
      mk8 b7 b6 b5 b4 b3 b2 b1 b0 := by decide +kernel
theorem flagByte5 : ∀ b4 b3 b2 b1 b0 : Bool,
    flagByte [(4, bit b4), (3, bit b3), (2, bit b2), (1, bit b1), (0, bit b0)] =
      mk8 false false false b4 b3 b2 b1 b0 := by decide +kernel
theorem flagByte3 : ∀ b2 b1 b0 : Bool, flagByte [(2, bit b2), (1, bit b1), (0, bit b0)] =
      mk8 false false false false false b2 b1 b0 := by decide +kernel
theorem flagByteSdr : ∀ b7 b6 b5 b4 b3 b2 b1 b0 : Bool,
    flagByte [(7, bit b7), (6, bit b6), (5, bit b5), (3, bit b4 ++ bit b3), (2, bit b2), (1, bit b1), (0, bit b0)] =
      mk8 b7 b6 b5 b4 b3 b2 b1 b0 := by decide +kernel
theorem flagByteLiquid : ∀ e v1 v0 r : Bool, ∀ n : Fin 8, ∃ a b c, fmt3 (UInt8.ofNat n.val) = bit a ++ (bit b ++ bit c) ∧
    parseFlags (bit a ++ (bit b ++ bit c)) = .ok (UInt8.ofNat n.val) ∧
    flagByte [(6, bit e), (4, bit v1 ++ bit v0), (3, bit r)] + UInt8.ofNat n.val = mk8 false e v1 v0 r a b c := by decide +kernel


theorem posSpeedWord_eq : ∀ s : Fin 1639, ∀ d a : Fin 2,
    posSpeedWord (UInt16.ofNat s.val) (UInt8.ofNat d.val) (UInt8.ofNat a.val) =
      UInt16.ofNat (s.val * 10 + a.val * 2 ^ 14 + d.val * 2 ^ 15) := by decide +kernel

theorem posDirByte_eq : ∀ c : Fin 256, ∀ d : Fin 2,
    posDirByte (UInt8.ofNat c.val) (UInt8.ofNat d.val) = UInt8.ofNat (if UInt8.ofNat d.val = 1 then c.val % 128 else c.val) := by decide +kernel

theorem leBytes2_nat {n : Nat} (h : n < 2 ^ 16) : leBytes 2 n = put16 (UInt16.ofNat n) := by
  rw [← leBytes2, UInt16.toNat_ofNat', Nat.mod_eq_of_lt h]

theorem leBytes4_nat {n : Nat} (h : n < 2 ^ 32) : leBytes 4 n = put32 (UInt32.ofNat n) := by
  rw [← leBytes4, UInt32.toNat_ofNat', Nat.mod_eq_of_lt h]

theorem encRecTime_eq (s : Nat) (hs : s < 2 ^ 32) : encRecTime (timeOffset + (s : Int) * 1000000000) = UInt32.ofNat s := by
  have : GoTime.unix (timeOffset + (s : Int) * 1000000000) - GoTime.unix timeOffset = s := by
    unfold GoTime.unix timeOffset; omega
  unfold encRecTime
  rw [this]
  congr 1; omega

theorem decTime_eq (s : Nat) (hs : s < 2 ^ 32) : decTime (UInt32.ofNat s) = timeOffset + (s : Int) * 1000000000 := by
  unfold decTime
  rw [UInt32.toNat_ofNat', Nat.mod_eq_of_lt hs]

theorem rdStep_wire (env : Env) (f) (t : UInt8) (data : Bytes) (hl : data.length < 2 ^ 16) (rest : Bytes) :
    rdStep env f (subrecordWire t data ++ rest) =
      (subDecode env f t (UInt16.ofNat data.length) data).bind fun d => .ok (d.map (fun d =>
        { subrecordType := t, subrecordLength := UInt16.ofNat data.length, subrecordData := some d }), rest) := by
  have hn : (UInt16.ofNat data.length).toNat = data.length := by
    rw [UInt16.toNat_ofNat']; exact Nat.mod_eq_of_lt hl
  have e2 := bufferRead_full (buf := zeros 2) (x := put16 (UInt16.ofNat data.length)) (r := data ++ rest) rfl (by simp [put16])
  simp only [subrecordWire, leBytes2_nat hl, rdStep, List.cons_append, List.nil_append, readByte_cons, ok_bind, List.append_assoc,
    e2, le16_put16, hn, List.take_left', List.drop_left', pure_eq_ok]
  rfl

theorem rds_decode_error (env : Env) (prior : List RecordData) (k : Nat) (r : Bytes) (e : Err)
    (hr : r ≠ []) (hk : depthFor r.length ≤ k) (h : rdStep env (srRespDecode env k) r = .error e) :
    RecordDataSet.decode env prior r = .error e := by
  rw [← rdsDecode_depth env k r.length prior r hk (Nat.le_refl _)]
  cases r with
  | nil => exact absurd rfl hr
  | cons x r => simp only [List.length_cons, rdsLoop, if_neg hr, h, error_bind]

theorem sds_decode_error (env : Env) (prior : List ServiceDataRecord) (k : Nat) (r : Bytes) (e : Err)
    (hr : r ≠ []) (hk : depthFor r.length ≤ k) (h : sdrStep (rdsDecodeD env k) r = .error e) :
    ServiceDataSet.decode env prior r = .error e := by
  rw [← sdsDecode_depth env k r.length prior r hk (Nat.le_refl _)]
  cases r with
  | nil => exact absurd rfl hr
  | cons x r => simp only [List.length_cons, sdsLoop, if_neg hr, h, error_bind]

end Egts
