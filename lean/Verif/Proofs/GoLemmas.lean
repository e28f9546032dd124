import Verif.Model.Package

/-! # Lemmas about the Go primitives -/

namespace Egts

@[simp] theorem ok_bind {ε α β : Type} (a : α) (f : α → Except ε β) :
    (Except.ok a >>= f) = f a := rfl
@[simp] theorem error_bind {ε α β : Type} (e : ε) (f : α → Except ε β) :
    ((Except.error e : Except ε α) >>= f) = .error e := rfl
@[simp] theorem pure_eq_ok {ε α : Type} (a : α) : (pure a : Except ε α) = .ok a := rfl
@[simp] theorem ok_map {ε α β : Type} (a : α) (f : α → β) :
    (Except.ok a : Except ε α).map f = .ok (f a) := rfl
@[simp] theorem error_map {ε α β : Type} (e : ε) (f : α → β) :
    (Except.error e : Except ε α).map f = .error e := rfl

theorem bind_eq_ok {ε α β : Type} {x : Except ε α} {f : α → Except ε β} {b : β} :
    (x >>= f) = .ok b ↔ ∃ a, x = .ok a ∧ f a = .ok b := by
  cases x <;> simp

@[simp] theorem zeros_length (n : Nat) : (zeros n).length = n := by simp [zeros]

@[simp] theorem put16_length (v : UInt16) : (put16 v).length = 2 := rfl
@[simp] theorem put32_length (v : UInt32) : (put32 v).length = 4 := rfl
@[simp] theorem put24_length (v : UInt32) : (put24 v).length = 3 := rfl
@[simp] theorem fmt8_length (v : UInt8) : (fmt8 v).length = 8 := rfl

theorem uint8_toNat_lt (b : UInt8) : b.toNat < 256 := UInt8.toNat_lt b

theorem ofNat8_toNat (n : Nat) (h : n < 256) : (UInt8.ofNat n).toNat = n := by
  simp [UInt8.toNat_ofNat', Nat.mod_eq_of_lt h]

@[simp] theorem le16_put16 (v : UInt16) : le16 (put16 v) = v := by
  have hv := UInt16.toNat_lt v
  apply UInt16.toNat_inj.mp
  simp only [put16, le16, UInt16.toNat_ofNat', UInt8.toNat_ofNat']
  omega

@[simp] theorem le32_put32 (v : UInt32) : le32 (put32 v) = v := by
  have hv := UInt32.toNat_lt v
  apply UInt32.toNat_inj.mp
  simp only [put32, le32, UInt32.toNat_ofNat', UInt8.toNat_ofNat']
  omega

theorem put16_le16 (a b : UInt8) : put16 (le16 [a, b]) = [a, b] := by
  have ha := uint8_toNat_lt a
  have hb := uint8_toNat_lt b
  simp only [put16, le16, UInt16.toNat_ofNat', List.cons.injEq, and_true]
  refine ⟨?_, ?_⟩ <;> apply UInt8.toNat_inj.mp <;> simp only [UInt8.toNat_ofNat'] <;> omega

theorem put32_le32 (a b c d : UInt8) : put32 (le32 [a, b, c, d]) = [a, b, c, d] := by
  have ha := uint8_toNat_lt a
  have hb := uint8_toNat_lt b
  have hc := uint8_toNat_lt c
  have hd := uint8_toNat_lt d
  simp only [put32, le32, UInt32.toNat_ofNat', List.cons.injEq, and_true]
  refine ⟨?_, ?_, ?_, ?_⟩ <;> apply UInt8.toNat_inj.mp <;> simp only [UInt8.toNat_ofNat'] <;> omega

theorem le32_put24 (v : UInt32) : le32 (put24 v ++ [0]) = UInt32.ofNat (v.toNat % 16777216) := by
  have hv := UInt32.toNat_lt v
  apply UInt32.toNat_inj.mp
  simp only [put24, put32, le32, List.take_succ_cons, List.take_zero, List.cons_append,
    List.nil_append, UInt32.toNat_ofNat', UInt8.toNat_ofNat', UInt8.toNat_zero]
  omega

theorem le32_put24_of_lt (v : UInt32) (h : v.toNat < 16777216) : le32 (put24 v ++ [0]) = v := by
  rw [le32_put24, Nat.mod_eq_of_lt h, UInt32.ofNat_toNat]

theorem put24_ofNat_mod (v : UInt32) : put24 (UInt32.ofNat (v.toNat % 16777216)) = put24 v := by
  have hv := UInt32.toNat_lt v
  simp only [put24, put32, UInt32.toNat_ofNat', List.take_succ_cons, List.take_zero, List.cons.injEq,
    and_true]
  refine ⟨?_, ?_, ?_⟩ <;> apply UInt8.toNat_inj.mp <;> simp only [UInt8.toNat_ofNat'] <;> omega

/-! ## readers -/

@[simp] theorem readByte_cons (b : UInt8) (r : Bytes) : readByte (b :: r) = .ok (b, r) := rfl
@[simp] theorem readByte_nil : readByte [] = .error .eof := rfl

theorem readerRead_full {buf x r : Bytes} (h : x.length = buf.length) (hx : x ≠ []) :
    readerRead buf (x ++ r) = .ok (x, r) := by
  have h1 : x ++ r ≠ [] := by simp [hx]
  have h2 : (x ++ r).take buf.length = x := by rw [← h]; simp
  have h3 : (x ++ r).drop buf.length = r := by rw [← h]; simp
  have h4 : buf.drop (x ++ r).length = [] := by
    apply List.drop_eq_nil_of_le; simp; omega
  rw [readerRead, if_neg h1, h2, h3, h4, List.append_nil]

theorem bufferRead_full {buf x r : Bytes} (h : x.length = buf.length) (hx : x ≠ []) :
    bufferRead buf (x ++ r) = .ok (x, r) := by
  have := readerRead_full (r := r) h hx
  have h1 : ¬ (x ++ r = []) := by simp [hx]
  simp only [readerRead, if_neg h1] at this
  simp only [bufferRead, h1, false_and, if_false, this]

theorem readerRead_put16 {buf : Bytes} (h : buf.length = 2) (v : UInt16) (r : Bytes) :
    readerRead buf (put16 v ++ r) = .ok (put16 v, r) :=
  readerRead_full (by simp [h]) (by simp [put16])

theorem readerRead_put32 {buf : Bytes} (h : buf.length = 4) (v : UInt32) (r : Bytes) :
    readerRead buf (put32 v ++ r) = .ok (put32 v, r) :=
  readerRead_full (by simp [h]) (by simp [put32])

theorem readerRead_put24 {buf : Bytes} (h : buf.length = 3) (v : UInt32) (r : Bytes) :
    readerRead buf (put24 v ++ r) = .ok (put24 v, r) :=
  readerRead_full (by simp [h]) (by simp [put24, put32])

/-- `Read` never changes the length of the buffer. -/
theorem readerRead_length {buf r b r' : Bytes} (h : readerRead buf r = .ok (b, r')) :
    b.length = buf.length := by
  unfold readerRead at h
  split at h
  · cases h
  · cases h; simp; omega

theorem readCString_append (s r : Bytes) (h : (0 : UInt8) ∉ s) :
    readCString (s ++ 0 :: r) = .ok (s, r) := by
  induction s with
  | nil => simp [readCString]
  | cons b s ih =>
    simp only [List.mem_cons, not_or] at h
    have hb : b ≠ 0 := fun e => h.1 e.symm
    simp [readCString, hb, ih h.2]

/-! ## flag strings -/

/-- The one-character string of a bit. -/
def bit (b : Bool) : Bytes := if b then go!"1" else go!"0"

@[simp] theorem bit_length (b : Bool) : (bit b).length = 1 := by cases b <;> rfl
@[simp] theorem bit_eq_one (b : Bool) : bit b = one ↔ b = true := by cases b <;> simp [bit]

theorem bit_inj {a b : Bool} : bit a = bit b ↔ a = b := by cases a <;> cases b <;> simp [bit]

/-- The byte with the given bits, most significant first. -/
def mk8 (b7 b6 b5 b4 b3 b2 b1 b0 : Bool) : UInt8 :=
  UInt8.ofNat (128 * b7.toNat + 64 * b6.toNat + 32 * b5.toNat + 16 * b4.toNat
    + 8 * b3.toNat + 4 * b2.toNat + 2 * b1.toNat + b0.toNat)

theorem parseFlags_bits : ∀ b7 b6 b5 b4 b3 b2 b1 b0 : Bool,
    parseFlags (bit b7 ++ (bit b6 ++ (bit b5 ++ (bit b4 ++ (bit b3 ++ (bit b2 ++ (bit b1 ++ bit b0))))))) =
      .ok (mk8 b7 b6 b5 b4 b3 b2 b1 b0) := by decide +kernel

theorem parseUint2_bits : ∀ b7 b6 b5 b4 b3 b2 b1 b0 : Bool,
    parseUint2 8 (bit b7 ++ (bit b6 ++ (bit b5 ++ (bit b4 ++ (bit b3 ++ (bit b2 ++ (bit b1 ++ bit b0))))))) =
      ((mk8 b7 b6 b5 b4 b3 b2 b1 b0).toNat, none) := by decide +kernel

theorem fmt8_mk8 : ∀ b7 b6 b5 b4 b3 b2 b1 b0 : Bool,
    fmt8 (mk8 b7 b6 b5 b4 b3 b2 b1 b0) =
      bit b7 ++ (bit b6 ++ (bit b5 ++ (bit b4 ++ (bit b3 ++ (bit b2 ++ (bit b1 ++ bit b0)))))) := by
  decide +kernel

theorem exists_mk8 (f : UInt8) : ∃ b7 b6 b5 b4 b3 b2 b1 b0, f = mk8 b7 b6 b5 b4 b3 b2 b1 b0 := by
  have h := uint8_toNat_lt f
  refine ⟨decide (f.toNat / 128 % 2 = 1), decide (f.toNat / 64 % 2 = 1), decide (f.toNat / 32 % 2 = 1),
    decide (f.toNat / 16 % 2 = 1), decide (f.toNat / 8 % 2 = 1), decide (f.toNat / 4 % 2 = 1),
    decide (f.toNat / 2 % 2 = 1), decide (f.toNat % 2 = 1), ?_⟩
  apply UInt8.toNat_inj.mp
  revert h
  generalize f.toNat = n
  revert n
  have : ∀ n : Fin 256, n.val = (mk8 (decide (n.val / 128 % 2 = 1)) (decide (n.val / 64 % 2 = 1)) (decide (n.val / 32 % 2 = 1))
      (decide (n.val / 16 % 2 = 1)) (decide (n.val / 8 % 2 = 1)) (decide (n.val / 4 % 2 = 1))
      (decide (n.val / 2 % 2 = 1)) (decide (n.val % 2 = 1))).toNat := by decide +kernel
  intro n hn
  exact this ⟨n, hn⟩

section
variable (b7 b6 b5 b4 b3 b2 b1 b0 : Bool)
@[simp] theorem sub01 : substr (fmt8 (mk8 b7 b6 b5 b4 b3 b2 b1 b0)) 0 1 = bit b7 := by
  revert b7 b6 b5 b4 b3 b2 b1 b0; decide +kernel
@[simp] theorem sub12 : substr (fmt8 (mk8 b7 b6 b5 b4 b3 b2 b1 b0)) 1 2 = bit b6 := by
  revert b7 b6 b5 b4 b3 b2 b1 b0; decide +kernel
@[simp] theorem sub23 : substr (fmt8 (mk8 b7 b6 b5 b4 b3 b2 b1 b0)) 2 3 = bit b5 := by
  revert b7 b6 b5 b4 b3 b2 b1 b0; decide +kernel
@[simp] theorem sub34 : substr (fmt8 (mk8 b7 b6 b5 b4 b3 b2 b1 b0)) 3 4 = bit b4 := by
  revert b7 b6 b5 b4 b3 b2 b1 b0; decide +kernel
@[simp] theorem sub45 : substr (fmt8 (mk8 b7 b6 b5 b4 b3 b2 b1 b0)) 4 5 = bit b3 := by
  revert b7 b6 b5 b4 b3 b2 b1 b0; decide +kernel
@[simp] theorem sub56 : substr (fmt8 (mk8 b7 b6 b5 b4 b3 b2 b1 b0)) 5 6 = bit b2 := by
  revert b7 b6 b5 b4 b3 b2 b1 b0; decide +kernel
@[simp] theorem sub67 : substr (fmt8 (mk8 b7 b6 b5 b4 b3 b2 b1 b0)) 6 7 = bit b1 := by
  revert b7 b6 b5 b4 b3 b2 b1 b0; decide +kernel
@[simp] theorem sub78 : substr (fmt8 (mk8 b7 b6 b5 b4 b3 b2 b1 b0)) 7 8 = bit b0 := by
  revert b7 b6 b5 b4 b3 b2 b1 b0; decide +kernel
@[simp] theorem sub02 : substr (fmt8 (mk8 b7 b6 b5 b4 b3 b2 b1 b0)) 0 2 = bit b7 ++ bit b6 := by
  revert b7 b6 b5 b4 b3 b2 b1 b0; decide +kernel
@[simp] theorem sub24 : substr (fmt8 (mk8 b7 b6 b5 b4 b3 b2 b1 b0)) 2 4 = bit b5 ++ bit b4 := by
  revert b7 b6 b5 b4 b3 b2 b1 b0; decide +kernel
@[simp] theorem sub35 : substr (fmt8 (mk8 b7 b6 b5 b4 b3 b2 b1 b0)) 3 5 = bit b4 ++ bit b3 := by
  revert b7 b6 b5 b4 b3 b2 b1 b0; decide +kernel
@[simp] theorem sub68 : substr (fmt8 (mk8 b7 b6 b5 b4 b3 b2 b1 b0)) 6 8 = bit b1 ++ bit b0 := by
  revert b7 b6 b5 b4 b3 b2 b1 b0; decide +kernel
end

/-! ## optional fields -/

theorem optBytes_bit (b : Bool) (x : Bytes) : optBytes (bit b) x = if b then x else [] := by
  cases b <;> simp [optBytes, bit]

theorem optU8_bit (b : Bool) (v old : UInt8) (r : Bytes) :
    optU8 (bit b) old (optBytes (bit b) [v] ++ r) = .ok (if b then v else old, r) := by
  cases b <;> simp [optU8, optBytes, bit]

theorem optU16_bit (b : Bool) (v old : UInt16) {tmp : Bytes} (r : Bytes) (h : tmp.length = 2) :
    ∃ tmp', tmp'.length = 2 ∧
      optU16 (bit b) old tmp (optBytes (bit b) (put16 v) ++ r) = .ok (if b then v else old, tmp', r) := by
  cases b
  · exact ⟨tmp, h, by simp [optU16, bit, optBytes]⟩
  · exact ⟨put16 v, rfl, by simp [optU16, bit, optBytes, readerRead_put16 h]⟩

theorem optU24_bit (b : Bool) (v old : UInt32) {tmp : Bytes} (r : Bytes) (h : tmp.length = 3) :
    ∃ tmp', tmp'.length = 3 ∧
      optU24 (bit b) old tmp (optBytes (bit b) (put24 v) ++ r) =
        .ok (if b then UInt32.ofNat (v.toNat % 16777216) else old, tmp', r) := by
  cases b
  · exact ⟨tmp, h, by simp [optU24, bit, optBytes]⟩
  · refine ⟨put24 v, rfl, ?_⟩
    have := le32_put24 v
    simp [optU24, bit, optBytes, readerRead_put24 h, this]

theorem optU32_bit (b : Bool) (v old : UInt32) (r : Bytes) :
    optU32 (bit b) old (optBytes (bit b) (put32 v) ++ r) = .ok (if b then v else old, r) := by
  cases b
  · simp [optU32, bit, optBytes]
  · simp [optU32, bit, optBytes, readerRead_put32]

theorem optTime_bit (b : Bool) (v : UInt32) (old : GoTime) (r : Bytes) :
    optTime (bit b) old (optBytes (bit b) (put32 v) ++ r) = .ok (if b then decTime v else old, r) := by
  cases b
  · simp [optTime, bit, optBytes]
  · simp [optTime, bit, optBytes, readerRead_put32]

theorem optN_bit (b : Bool) (n : Nat) (x old r : Bytes) (h : b = true → x.length = n) (hn : 0 < n) :
    optN (bit b) n old (optBytes (bit b) x ++ r) = .ok (if b then x else old, r) := by
  cases b
  · simp [optN, bit, optBytes]
  · have hx := h rfl
    have : x ≠ [] := by intro e; simp [e] at hx; omega
    simp [optN, bit, optBytes, readerRead_full (buf := zeros n) (by simp [hx]) this]

end Egts
