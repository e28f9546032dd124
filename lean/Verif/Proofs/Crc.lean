import Verif.Model.Crc
import Verif.Spec.Crc
import Mathlib.Tactic.Ring
import Mathlib.Tactic.ComputeDegree
import Mathlib.Data.Nat.Bitwise
import Mathlib.Tactic.LinearCombination
import Mathlib.RingTheory.Coprime.Lemmas
import Mathlib.Algebra.CharP.Two

/-! # Checksums as polynomial remainders -/

namespace Egts.Crc

open Polynomial

theorem add_self (p : Poly) : p + p = 0 := CharTwo.add_self_eq_zero p
theorem sub_eq (p q : Poly) : p - q = p + q := CharTwo.sub_eq_add p q

theorem poly_append (a b : List Bool) : poly (a ++ b) = poly a * X ^ b.length + poly b := by
  induction a with
  | nil => simp [poly]
  | cons x a ih =>
    simp only [List.cons_append, poly, ih, List.length_append]
    split <;> ring

theorem poly_xor : ∀ (a b : List Bool), a.length = b.length → poly (List.zipWith xor a b) = poly a + poly b
  | [], [], _ => by simp [poly]
  | x :: a, y :: b, h => by
    have hl : a.length = b.length := by simpa using h
    have hz : (List.zipWith xor a b).length = b.length := by simp [hl]
    simp only [List.zipWith_cons_cons, poly, poly_xor a b hl, hz, hl]
    cases x <;> cases y <;> simp
    · ring
    · ring
    · have := add_self (X ^ b.length : Poly)
      linear_combination -this

theorem degree_poly (l : List Bool) : (poly l).degree < l.length := by
  induction l with
  | nil => simp [poly]
  | cons x l ih =>
    simp only [poly, List.length_cons]
    refine lt_of_le_of_lt (degree_add_le _ _) (max_lt ?_ (lt_trans ih (by exact_mod_cast Nat.lt_succ_self _)))
    split
    · rw [degree_X_pow]; exact_mod_cast Nat.lt_succ_self _
    · simp

theorem bitsOf_length (w n : Nat) : (bitsOf w n).length = w := by simp [bitsOf]

theorem bits_length (b : Bytes) : (bits b).length = 8 * b.length := by
  induction b with
  | nil => rfl
  | cons x b ih =>
    simp only [bits, List.flatMap_cons, List.length_append, bitsOf_length, List.length_cons] at *
    omega

theorem bits_append (a b : Bytes) : bits (a ++ b) = bits a ++ bits b := by simp [bits]

theorem bitsOf_succ (w n : Nat) : bitsOf (w + 1) n = n.testBit w :: bitsOf w n := by
  simp [bitsOf, List.range_succ]

theorem poly_bitsOf_xor (w a b : Nat) : poly (bitsOf w (a ^^^ b)) = poly (bitsOf w a) + poly (bitsOf w b) := by
  rw [← poly_xor _ _ (by simp [bitsOf_length])]
  congr 1
  simp only [bitsOf, List.zipWith_map, List.zipWith_self]
  apply List.map_congr_left
  intro i _
  exact Nat.testBit_xor ..

theorem bitsOf_shift (w n : Nat) : bitsOf (w + 1) (n <<< 1) = bitsOf w n ++ [false] := by
  induction w with
  | zero => simp [bitsOf]
  | succ w ih =>
    rw [bitsOf_succ, ih, bitsOf_succ]
    simp [Nat.testBit_shiftLeft]

theorem bitsOf_mod (w n : Nat) : bitsOf w (n % 2 ^ w) = bitsOf w n := by
  unfold bitsOf
  apply List.map_congr_left
  intro i hi
  simp only [List.mem_reverse, List.mem_range] at hi
  simp [Nat.testBit_mod_two_pow, hi]

/-- Shifting left by one: multiply by x and drop the overflow. -/
theorem poly_shift (w n : Nat) :
    poly (bitsOf (w + 1) (n <<< 1)) = poly (bitsOf (w + 1) n) * X + (if n.testBit w then X ^ (w + 1) else 0) := by
  rw [bitsOf_shift, poly_append, bitsOf_succ]
  simp only [poly, List.length_cons, List.length_nil, bitsOf_length]
  have := add_self (X ^ (w + 1) : Poly)
  cases n.testBit w
  · simp
  · simp
    linear_combination -this

theorem bitsOf_inj {w : Nat} : ∀ {a b : Nat}, a < 2 ^ w → b < 2 ^ w → bitsOf w a = bitsOf w b → a = b := by
  intro a b ha hb h
  apply Nat.eq_of_testBit_eq
  intro i
  by_cases hi : i < w
  · have := List.map_inj_left.mp h i (by simp [hi])
    exact this
  · rw [Nat.testBit_lt_two_pow (lt_of_lt_of_le ha (Nat.pow_le_pow_right (by decide) (by omega))),
      Nat.testBit_lt_two_pow (lt_of_lt_of_le hb (Nat.pow_le_pow_right (by decide) (by omega)))]

theorem poly_inj : ∀ {a b : List Bool}, a.length = b.length → poly a = poly b → a = b
  | [], [], _, _ => rfl
  | x :: a, y :: b, h, hp => by
    have hl : a.length = b.length := by simpa using h
    simp only [poly, hl] at hp
    have ha := degree_poly a
    have hb := degree_poly b
    rw [hl] at ha
    have ca : (poly a).coeff b.length = 0 := coeff_eq_zero_of_degree_lt ha
    have cb : (poly b).coeff b.length = 0 := coeff_eq_zero_of_degree_lt hb
    have hc := congrArg (fun p => p.coeff b.length) hp
    simp only [coeff_add, ca, cb, add_zero] at hc
    have hxy : x = y := by
      cases x <;> cases y <;> simp at hc ⊢
    subst hxy
    rw [poly_inj hl (add_left_cancel hp)]

/-- Polynomial of a 16-bit register. -/
noncomputable def val16 (s : UInt16) : Poly := poly (bitsOf 16 s.toNat)
/-- Polynomial of an 8-bit register. -/
noncomputable def val8 (s : UInt8) : Poly := poly (bitsOf 8 s.toNat)

theorem val16_xor (a b : UInt16) : val16 (a ^^^ b) = val16 a + val16 b := by
  unfold val16; rw [UInt16.toNat_xor, poly_bitsOf_xor]
theorem val8_xor (a b : UInt8) : val8 (a ^^^ b) = val8 a + val8 b := by
  unfold val8; rw [UInt8.toNat_xor, poly_bitsOf_xor]

theorem top16 (s : UInt16) : s &&& 0x8000 ≠ 0 ↔ s.toNat.testBit 15 = true := by
  have h : ∀ n : Nat, n < 65536 → (n &&& 32768 ≠ 0 ↔ n.testBit 15 = true) := by
    intro n hn
    have : (32768 : Nat) = 2 ^ 15 := rfl
    rw [this, Nat.and_two_pow]
    cases n.testBit 15 <;> simp
  rw [← h _ (UInt16.toNat_lt s), ne_eq, ← UInt16.toNat_inj, UInt16.toNat_and]
  rfl

theorem top8 (s : UInt8) : s &&& 0x80 ≠ 0 ↔ s.toNat.testBit 7 = true := by
  have : (0x80 : UInt8).toNat = 2 ^ 7 := rfl
  rw [ne_eq, ← UInt8.toNat_inj, UInt8.toNat_and, this, Nat.and_two_pow]
  cases s.toNat.testBit 7 <;> simp

theorem val16_shl (s : UInt16) : val16 (s <<< 1) = val16 s * X + (if s &&& 0x8000 ≠ 0 then X ^ 16 else 0) := by
  unfold val16
  have : (s <<< 1).toNat = (s.toNat <<< 1) % 2 ^ 16 := by rw [UInt16.toNat_shiftLeft]; rfl
  rw [this, bitsOf_mod, poly_shift]
  simp only [top16]

theorem val8_shl (s : UInt8) : val8 (s <<< 1) = val8 s * X + (if s &&& 0x80 ≠ 0 then X ^ 8 else 0) := by
  unfold val8
  have : (s <<< 1).toNat = (s.toNat <<< 1) % 2 ^ 8 := by rw [UInt8.toNat_shiftLeft]; rfl
  rw [this, bitsOf_mod, poly_shift]
  simp only [top8]

theorem val16_low : val16 0x1021 = X ^ 12 + X ^ 5 + 1 := by
  have : bitsOf 16 (0x1021 : UInt16).toNat =
    [false, false, false, true, false, false, false, false, false, false, true, false, false, false, false, true] := by decide +kernel
  unfold val16; rw [this]; simp [poly]; ring

theorem val8_low : val8 0x31 = X ^ 5 + X ^ 4 + 1 := by
  have : bitsOf 8 (0x31 : UInt8).toNat = [false, false, true, true, false, false, false, true] := by decide +kernel
  unfold val8; rw [this]; simp [poly]; ring

theorem shift16 (s : UInt16) : g16 ∣ val16 (crc16Shift s) - val16 s * X := by
  unfold crc16Shift
  split
  · rename_i h
    rw [val16_xor, val16_shl, if_pos h, val16_low]
    refine ⟨1, ?_⟩
    unfold g16; ring
  · rename_i h
    rw [val16_shl, if_neg h]
    simp

theorem shift8 (s : UInt8) : g8 ∣ val8 (crc8Shift s) - val8 s * X := by
  unfold crc8Shift
  split
  · rename_i h
    rw [val8_xor, val8_shl, if_pos h, val8_low]
    refine ⟨1, ?_⟩
    unfold g8; ring
  · rename_i h
    rw [val8_shl, if_neg h]
    simp

theorem repeat16 (n : Nat) (s : UInt16) : g16 ∣ val16 (Nat.repeat crc16Shift n s) - val16 s * X ^ n := by
  induction n with
  | zero => simp [Nat.repeat]
  | succ n ih =>
    have h1 := shift16 (Nat.repeat crc16Shift n s)
    have h2 := dvd_add h1 (dvd_mul_of_dvd_left ih X)
    convert h2 using 1
    simp only [Nat.repeat]
    ring

theorem repeat8 (n : Nat) (s : UInt8) : g8 ∣ val8 (Nat.repeat crc8Shift n s) - val8 s * X ^ n := by
  induction n with
  | zero => simp [Nat.repeat]
  | succ n ih =>
    have h1 := shift8 (Nat.repeat crc8Shift n s)
    have h2 := dvd_add h1 (dvd_mul_of_dvd_left ih X)
    convert h2 using 1
    simp only [Nat.repeat]
    ring

theorem val16_byte (b : UInt8) : val16 (b.toUInt16 <<< 8) = val8 b * X ^ 8 := by
  unfold val16 val8
  have h : bitsOf 16 (b.toUInt16 <<< 8).toNat = bitsOf 8 b.toNat ++ List.replicate 8 false := by
    have e : (b.toUInt16 <<< 8).toNat = (b.toNat <<< 8) % 2 ^ 16 := by
      rw [UInt16.toNat_shiftLeft, UInt8.toNat_toUInt16]; rfl
    rw [e, bitsOf_mod]
    simp [bitsOf, List.range_succ, Nat.testBit_shiftLeft]
  rw [h, poly_append]
  simp [poly]

theorem byte16 (s : UInt16) (b : UInt8) : g16 ∣ val16 (crc16Byte s b) - (val16 s + val8 b * X ^ 8) * X ^ 8 := by
  have := repeat16 8 (s ^^^ (b.toUInt16 <<< 8))
  rw [val16_xor, val16_byte] at this
  exact this

theorem byte8 (s b : UInt8) : g8 ∣ val8 (crc8Byte s b) - (val8 s + val8 b) * X ^ 8 := by
  have := repeat8 8 (s ^^^ b)
  rw [val8_xor] at this
  exact this

theorem bits_snoc (d : Bytes) (b : UInt8) : poly (bits (d ++ [b])) = poly (bits d) * X ^ 8 + val8 b := by
  rw [bits_append, poly_append, bits_length]
  simp [bits, val8]

theorem fold16 (s : UInt16) (d : Bytes) :
    g16 ∣ val16 (d.foldl crc16Byte s) - (poly (bits d) * X ^ 16 + val16 s * X ^ (8 * d.length)) := by
  induction d using List.reverseRecOn with
  | nil => simp [bits, poly]
  | append_singleton d b ih =>
    rw [List.foldl_append, bits_snoc, List.length_append]
    have h1 := byte16 (d.foldl crc16Byte s) b
    have h2 := dvd_add h1 (dvd_mul_of_dvd_left ih (X ^ 8))
    convert h2 using 1
    simp only [List.foldl_cons, List.foldl_nil, List.length_cons, List.length_nil]
    ring

theorem fold8 (s : UInt8) (d : Bytes) :
    g8 ∣ val8 (d.foldl crc8Byte s) - (poly (bits d) * X ^ 8 + val8 s * X ^ (8 * d.length)) := by
  induction d using List.reverseRecOn with
  | nil => simp [bits, poly]
  | append_singleton d b ih =>
    rw [List.foldl_append, bits_snoc, List.length_append]
    have h1 := byte8 (d.foldl crc8Byte s) b
    have h2 := dvd_add h1 (dvd_mul_of_dvd_left ih (X ^ 8))
    convert h2 using 1
    simp only [List.foldl_cons, List.foldl_nil, List.length_cons, List.length_nil]
    ring

theorem g16_monic : g16.Monic := by
  unfold g16
  monicity!

theorem g8_monic : g8.Monic := by
  unfold g8
  monicity!

theorem poly_flip (n : Nat) (l : List Bool) (h : n ≤ l.length) :
    poly (flip n l) = poly l + poly (List.replicate n true) * X ^ (l.length - n) := by
  induction n generalizing l with
  | zero => simp [flip, poly]
  | succ n ih =>
    cases l with
    | nil => simp at h
    | cons x l =>
      have hl : n ≤ l.length := by simpa using h
      have e : flip (n + 1) (x :: l) = (!x) :: flip n l := by simp [flip]
      have el : (flip n l).length = l.length := by simp [flip]; omega
      rw [e, List.replicate_succ]
      simp only [poly, el, ih l hl, List.length_replicate, List.length_cons, if_true]
      have e2 : l.length + 1 - (n + 1) = l.length - n := by omega
      have e3 : (X ^ n : Poly) * X ^ (l.length - n) = X ^ l.length := by rw [← pow_add]; congr 1; omega
      have := add_self (X ^ l.length : Poly)
      rw [e2, add_mul, e3]
      cases x
      · simp; ring
      · simp; linear_combination -this

theorem val16_init : val16 0xFFFF = poly (List.replicate 16 true) := by
  have : bitsOf 16 (0xFFFF : UInt16).toNat = List.replicate 16 true := by decide +kernel
  unfold val16; rw [this]

theorem val8_init : val8 0xFF = poly (List.replicate 8 true) := by
  have : bitsOf 8 (0xFF : UInt8).toNat = List.replicate 8 true := by decide +kernel
  unfold val8; rw [this]

theorem poly_zeros (n : Nat) : poly (List.replicate n false) = 0 := by
  induction n with
  | zero => rfl
  | succ n ih => simp [List.replicate_succ, poly, ih]

theorem aug (n : Nat) (d : Bytes) :
    poly (flip n (bits d ++ List.replicate n false)) = poly (bits d) * X ^ n + poly (List.replicate n true) * X ^ (8 * d.length) := by
  rw [poly_flip _ _ (by simp), poly_append, poly_zeros]
  simp [bits_length]

theorem g16_degree : g16.degree = 16 := by unfold g16; compute_degree!
theorem g8_degree : g8.degree = 8 := by unfold g8; compute_degree!

theorem crc16_rem (d : Bytes) :
    poly (bitsOf 16 (crc16 d).toNat) = poly (flip 16 (bits d ++ List.replicate 16 false)) %ₘ g16 := by
  have h := fold16 0xFFFF d
  rw [val16_init, ← aug] at h
  have h2 := modByMonic_eq_of_dvd_sub g16_monic h
  rw [← h2]
  refine ((modByMonic_eq_self_iff g16_monic).mpr ?_).symm
  rw [g16_degree]
  have := degree_poly (bitsOf 16 (crc16 d).toNat)
  rw [bitsOf_length] at this
  exact this

theorem crc8_rem (d : Bytes) :
    poly (bitsOf 8 (crc8 d).toNat) = poly (flip 8 (bits d ++ List.replicate 8 false)) %ₘ g8 := by
  have h := fold8 0xFF d
  rw [val8_init, ← aug] at h
  have h2 := modByMonic_eq_of_dvd_sub g8_monic h
  rw [← h2]
  refine ((modByMonic_eq_self_iff g8_monic).mpr ?_).symm
  rw [g8_degree]
  have := degree_poly (bitsOf 8 (crc8 d).toNat)
  rw [bitsOf_length] at this
  exact this

/-! ## Error detection -/

theorem eval_poly (l : List Bool) : (poly l).eval 1 = (l.count true : ZMod 2) := by
  induction l with
  | nil => simp [poly]
  | cons x l ih => cases x <;> simp [poly, ih, add_comm]

theorem dvd_eval {g p : Poly} (h : g ∣ p) (hg : g.eval 1 = 0) : p.eval 1 = 0 := by
  obtain ⟨q, rfl⟩ := h
  rw [eval_mul, hg, zero_mul]

theorem g16_eval : g16.eval 1 = 0 := by
  unfold g16; simp; decide
theorem g8_eval : g8.eval 1 = 0 := by
  unfold g8; simp; decide

/-- The checksum has the parity of the data. -/
theorem crc16_parity (d : Bytes) : ((bitsOf 16 (crc16 d).toNat).count true : ZMod 2) = ((bits d).count true : ZMod 2) := by
  have h := dvd_eval (fold16 0xFFFF d) g16_eval
  simp only [val16_init, eval_sub, eval_add, eval_mul, eval_pow, eval_X, one_pow, mul_one, eval_poly] at h
  rw [show ((List.replicate 16 true).count true : ZMod 2) = 0 from by decide +kernel, add_zero] at h
  unfold val16 at h
  rw [eval_poly] at h
  exact sub_eq_zero.mp h

theorem crc8_parity (d : Bytes) : ((bitsOf 8 (crc8 d).toNat).count true : ZMod 2) = ((bits d).count true : ZMod 2) := by
  have h := dvd_eval (fold8 0xFF d) g8_eval
  simp only [val8_init, eval_sub, eval_add, eval_mul, eval_pow, eval_X, one_pow, mul_one, eval_poly] at h
  rw [show ((List.replicate 8 true).count true : ZMod 2) = 0 from by decide +kernel, add_zero] at h
  unfold val8 at h
  rw [eval_poly] at h
  exact sub_eq_zero.mp h

/-- Parity of the number of differing bits. -/
theorem dist_parity : ∀ (a b : List Bool), a.length = b.length →
    (((a.zip b).countP fun p => p.1 != p.2 : Nat) : ZMod 2) = (a.count true : ZMod 2) + (b.count true : ZMod 2)
  | [], [], _ => by simp
  | x :: a, y :: b, h => by
    have ih := dist_parity a b (by simpa using h)
    simp only [List.zip_cons_cons, List.countP_cons, List.count_cons, Nat.cast_add, ih]
    cases x <;> cases y <;> simp
    · ring
    · ring
    · have : (1 : ZMod 2) + 1 = 0 := by decide
      linear_combination -this

theorem X_coprime_g16 (n : Nat) : IsCoprime (X ^ n : Poly) g16 := by
  apply IsCoprime.pow_left
  refine ⟨-(X ^ 15 + X ^ 11 + X ^ 4), 1, ?_⟩
  unfold g16; ring

theorem X_coprime_g8 (n : Nat) : IsCoprime (X ^ n : Poly) g8 := by
  apply IsCoprime.pow_left
  refine ⟨-(X ^ 7 + X ^ 4 + X ^ 3), 1, ?_⟩
  unfold g8; ring

theorem small_dvd {g e : Poly} (hm : g.Monic) (h : g ∣ e) (hd : e.degree < g.degree) : e = 0 := by
  by_contra h0
  exact hm.not_dvd_of_degree_lt h0 hd h

/-- Two bit strings that differ within `w` consecutive bits: their difference is a short polynomial
times a power of x. -/
theorem window {a b : List Bool} {w k : Nat} (hl : a.length = b.length) (h1 : a.take k = b.take k)
    (h2 : a.drop (k + w) = b.drop (k + w)) :
    ∃ e n, poly a - poly b = e * X ^ n ∧ e.degree < (w : WithBot ℕ) := by
  have split : ∀ l : List Bool, l = l.take k ++ ((l.drop k).take w ++ l.drop (k + w)) := by
    intro l
    rw [← List.drop_drop, List.take_append_drop, List.take_append_drop]
  refine ⟨poly ((a.drop k).take w) - poly ((b.drop k).take w), (a.drop (k + w)).length, ?_, ?_⟩
  · conv_lhs => rw [split a, split b]
    rw [poly_append, poly_append, poly_append, poly_append, h1, h2]
    have : (((a.drop k).take w) ++ b.drop (k + w)).length = (((b.drop k).take w) ++ b.drop (k + w)).length := by
      simp [hl]; omega
    rw [this]
    ring
  · have d1 := degree_poly ((a.drop k).take w)
    have d2 := degree_poly ((b.drop k).take w)
    refine lt_of_le_of_lt (degree_sub_le _ _) (max_lt (lt_of_lt_of_le d1 ?_) (lt_of_lt_of_le d2 ?_)) <;>
      exact_mod_cast (List.length_take_le _ _)

theorem bits_inj : ∀ {a b : Bytes}, bits a = bits b → a = b
  | [], [], _ => rfl
  | [], y :: b, h => by have := congrArg List.length h; rw [bits_length, bits_length] at this; simp at this
  | x :: a, [], h => by have := congrArg List.length h; rw [bits_length, bits_length] at this; simp at this
  | x :: a, y :: b, h => by
    simp only [bits, List.flatMap_cons] at h
    obtain ⟨h1, h2⟩ := List.append_inj h (by simp [bitsOf_length])
    rw [UInt8.toNat_inj.mp (bitsOf_inj (UInt8.toNat_lt x) (UInt8.toNat_lt y) h1), bits_inj h2]

theorem burst_window {w : Nat} {a b : Bytes} (h : Burst w a b) :
    ∃ e n, poly (bits a) - poly (bits b) = e * X ^ n ∧ e.degree < (w : WithBot ℕ) ∧ e ≠ 0 := by
  obtain ⟨hne, hl, k, h1, h2⟩ := h
  have hbl : (bits a).length = (bits b).length := by rw [bits_length, bits_length, hl]
  obtain ⟨e, n, he, hd⟩ := window hbl h1 h2
  refine ⟨e, n, he, hd, ?_⟩
  rintro rfl
  rw [zero_mul] at he
  exact hne (bits_inj (poly_inj hbl (sub_eq_zero.mp he)))

/-- A burst of at most 16 bits changes the body checksum. -/
theorem crc16_burst {a b : Bytes} (h : Burst 16 a b) : crc16 a ≠ crc16 b := by
  intro hc
  obtain ⟨e, n, he, hd, h0⟩ := burst_window h
  have h1 := fold16 0xFFFF a
  have h2 := fold16 0xFFFF b
  have h3 := dvd_sub h2 h1
  have : val16 (b.foldl crc16Byte 0xFFFF) = val16 (a.foldl crc16Byte 0xFFFF) := by
    show val16 (crc16 b) = val16 (crc16 a); rw [hc]
  rw [this, h.2.1] at h3
  have e2 : val16 (a.foldl crc16Byte 0xFFFF) - (poly (bits b) * X ^ 16 + val16 0xFFFF * X ^ (8 * b.length)) -
      (val16 (a.foldl crc16Byte 0xFFFF) - (poly (bits a) * X ^ 16 + val16 0xFFFF * X ^ (8 * b.length))) =
      (X ^ (n + 16)) * e := by
    linear_combination (X ^ 16) * he
  rw [e2] at h3
  have h4 := (X_coprime_g16 (n + 16)).symm.dvd_of_dvd_mul_left h3
  exact h0 (small_dvd g16_monic h4 (by rw [g16_degree]; exact hd))

/-- Data followed by its one-byte checksum: a burst of at most 8 bits is noticed wherever it falls. -/
theorem crc8_burst {a b : Bytes} {x y : UInt8} (h : Burst 8 (a ++ [x]) (b ++ [y])) (hx : crc8 a = x) : crc8 b ≠ y := by
  intro hy
  obtain ⟨e, n, he, hd, h0⟩ := burst_window h
  have hl : a.length = b.length := by have := h.2.1; simpa using this
  have h1 := fold8 0xFF a
  have h2 := fold8 0xFF b
  change g8 ∣ val8 (crc8 a) - _ at h1
  change g8 ∣ val8 (crc8 b) - _ at h2
  rw [hx] at h1
  rw [hy] at h2
  rw [hl] at h1
  have h3 := dvd_sub h2 h1
  rw [bits_snoc, bits_snoc] at he
  have e2 : val8 y - (poly (bits b) * X ^ 8 + val8 0xFF * X ^ (8 * b.length)) -
      (val8 x - (poly (bits a) * X ^ 8 + val8 0xFF * X ^ (8 * b.length))) = X ^ n * e := by
    have s1 := add_self (val8 x)
    have s2 := add_self (val8 y)
    linear_combination he - s1 + s2
  rw [e2] at h3
  have h4 := (X_coprime_g8 n).symm.dvd_of_dvd_mul_left h3
  exact h0 (small_dvd g8_monic h4 (by rw [g8_degree]; exact hd))

end Egts.Crc
