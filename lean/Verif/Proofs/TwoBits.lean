import Verif.Proofs.Crc

/-! # Two wrong bits are noticed by the checksums -/

namespace Egts.Crc

open Polynomial

theorem repeat_succ {α : Type} (f : α → α) (n : Nat) (s : α) : Nat.repeat f (n + 1) s = Nat.repeat f n (f s) := by
  induction n with
  | zero => rfl
  | succ n ih =>
    show f (Nat.repeat f (n + 1) s) = f (Nat.repeat f n (f s))
    rw [ih]

/-- The register does not come back to 1 within `n` steps. -/
def away16 : Nat → Nat → Bool
  | 0, _ => true
  | n + 1, s =>
    match (crc16Shift (UInt16.ofNat s)).toNat with
    | 0 => false
    | 1 => false
    | t + 2 => away16 n (t + 2)

def away8 : Nat → Nat → Bool
  | 0, _ => true
  | n + 1, s =>
    match (crc8Shift (UInt8.ofNat s)).toNat with
    | 0 => false
    | 1 => false
    | t + 2 => away8 n (t + 2)

theorem away16_spec : ∀ (n : Nat) (s : UInt16), away16 n s.toNat = true → ∀ k, 0 < k → k ≤ n → Nat.repeat crc16Shift k s ≠ 1
  | 0, _, _, k, h0, hn => by omega
  | n + 1, s, h, k, h0, hn => by
    obtain ⟨k, rfl⟩ : ∃ j, k = j + 1 := ⟨k - 1, by omega⟩
    rw [repeat_succ]
    rw [away16, UInt16.ofNat_toNat] at h
    rcases ht : (crc16Shift s).toNat with _ | _ | t
    · rw [ht] at h; exact absurd h (by simp)
    · rw [ht] at h; exact absurd h (by simp)
    · rw [ht] at h
      simp only at h
      rw [← ht] at h
      rcases Nat.eq_zero_or_pos k with rfl | hk
      · intro h1
        have : (crc16Shift s) = 1 := h1
        rw [this] at ht
        have : (1 : UInt16).toNat = 1 := rfl
        omega
      · exact away16_spec n _ h k hk (by omega)

theorem away8_spec : ∀ (n : Nat) (s : UInt8), away8 n s.toNat = true → ∀ k, 0 < k → k ≤ n → Nat.repeat crc8Shift k s ≠ 1
  | 0, _, _, k, h0, hn => by omega
  | n + 1, s, h, k, h0, hn => by
    obtain ⟨k, rfl⟩ : ∃ j, k = j + 1 := ⟨k - 1, by omega⟩
    rw [repeat_succ]
    rw [away8, UInt8.ofNat_toNat] at h
    rcases ht : (crc8Shift s).toNat with _ | _ | t
    · rw [ht] at h; exact absurd h (by simp)
    · rw [ht] at h; exact absurd h (by simp)
    · rw [ht] at h
      simp only at h
      rw [← ht] at h
      rcases Nat.eq_zero_or_pos k with rfl | hk
      · intro h1
        have : (crc8Shift s) = 1 := h1
        rw [this] at ht
        have : (1 : UInt8).toNat = 1 := rfl
        omega
      · exact away8_spec n _ h k hk (by omega)

set_option maxRecDepth 100000 in
theorem away16_all : away16 32766 1 = true := by decide +kernel

theorem away8_all : away8 126 1 = true := by decide +kernel

theorem val16_one : val16 1 = 1 := by
  have : bitsOf 16 (1 : UInt16).toNat = List.replicate 15 false ++ [true] := by decide +kernel
  unfold val16; rw [this, poly_append, poly_zeros]; simp [poly]

theorem val8_one : val8 1 = 1 := by
  have : bitsOf 8 (1 : UInt8).toNat = List.replicate 7 false ++ [true] := by decide +kernel
  unfold val8; rw [this, poly_append, poly_zeros]; simp [poly]

theorem val16_degree (s : UInt16) : (val16 s).degree < 16 := by
  have := degree_poly (bitsOf 16 s.toNat)
  rwa [bitsOf_length] at this

theorem val8_degree (s : UInt8) : (val8 s).degree < 8 := by
  have := degree_poly (bitsOf 8 s.toNat)
  rwa [bitsOf_length] at this

/-- x has order at least 32767 modulo the polynomial of the body checksum. -/
theorem order16 (k : Nat) (h0 : 0 < k) (hk : k < 32767) : ¬ g16 ∣ X ^ k + 1 := by
  intro h
  have h1 := repeat16 k 1
  rw [val16_one, one_mul] at h1
  have h2 := dvd_add h1 h
  have e : val16 (Nat.repeat crc16Shift k 1) - X ^ k + (X ^ k + 1) = val16 (Nat.repeat crc16Shift k 1) + 1 := by ring
  rw [e] at h2
  have hd : (val16 (Nat.repeat crc16Shift k 1) + 1).degree < g16.degree := by
    rw [g16_degree]
    refine lt_of_le_of_lt (degree_add_le _ _) (max_lt (val16_degree _) ?_)
    rw [← val16_one]; exact val16_degree _
  have h3 := small_dvd g16_monic h2 hd
  rw [← sub_eq, sub_eq_zero, ← val16_one] at h3
  have h4 := poly_inj (by simp [bitsOf_length]) h3
  have h5 := bitsOf_inj (UInt16.toNat_lt _) (UInt16.toNat_lt _) h4
  exact away16_spec 32766 1 away16_all k h0 (by omega) (UInt16.toNat_inj.mp h5)

/-- x has order at least 127 modulo the polynomial of the header checksum. -/
theorem order8 (k : Nat) (h0 : 0 < k) (hk : k < 127) : ¬ g8 ∣ X ^ k + 1 := by
  intro h
  have h1 := repeat8 k 1
  rw [val8_one, one_mul] at h1
  have h2 := dvd_add h1 h
  have e : val8 (Nat.repeat crc8Shift k 1) - X ^ k + (X ^ k + 1) = val8 (Nat.repeat crc8Shift k 1) + 1 := by ring
  rw [e] at h2
  have hd : (val8 (Nat.repeat crc8Shift k 1) + 1).degree < g8.degree := by
    rw [g8_degree]
    refine lt_of_le_of_lt (degree_add_le _ _) (max_lt (val8_degree _) ?_)
    rw [← val8_one]; exact val8_degree _
  have h3 := small_dvd g8_monic h2 hd
  rw [← sub_eq, sub_eq_zero, ← val8_one] at h3
  have h4 := poly_inj (by simp [bitsOf_length]) h3
  have h5 := bitsOf_inj (UInt8.toNat_lt _) (UInt8.toNat_lt _) h4
  exact away8_spec 126 1 away8_all k h0 (by omega) (UInt8.toNat_inj.mp h5)

/-! ## Bit strings that differ in one or two bits -/

/-- How many bits of two bit strings differ. -/
def dif (a b : List Bool) : Nat := (a.zip b).countP fun p => p.1 != p.2

theorem dist_eq (a b : Bytes) : dist a b = dif (bits a) (bits b) := rfl

theorem dif_cons (x y : Bool) (a b : List Bool) : dif (x :: a) (y :: b) = dif a b + if x = y then 0 else 1 := by
  unfold dif
  rw [List.zip_cons_cons, List.countP_cons]
  cases x <;> cases y <;> rfl

theorem dif_append {a b c d : List Bool} (h : a.length = b.length) : dif (a ++ c) (b ++ d) = dif a b + dif c d := by
  unfold dif
  rw [List.zip_append h, List.countP_append]

theorem dist_append {a b c d : Bytes} (h : a.length = b.length) : dist (a ++ c) (b ++ d) = dist a b + dist c d := by
  rw [dist_eq, dist_eq, dist_eq, bits_append, bits_append, dif_append (by rw [bits_length, bits_length, h])]

theorem dif_zero : ∀ {a b : List Bool}, a.length = b.length → dif a b = 0 → a = b
  | [], [], _, _ => rfl
  | x :: a, y :: b, h, h0 => by
    rw [dif_cons] at h0
    split at h0
    · rename_i e
      have : a = b := dif_zero (by simpa using h) (by omega)
      rw [e, this]
    · omega

theorem dist_zero {a b : Bytes} (h : a.length = b.length) (h0 : dist a b = 0) : a = b :=
  bits_inj (dif_zero (by rw [bits_length, bits_length, h]) h0)

theorem dif_self (a : List Bool) : dif a a = 0 := by
  induction a with
  | nil => rfl
  | cons x a ih => rw [dif_cons, ih]; simp

theorem one_bit : ∀ {a b : List Bool}, a.length = b.length → dif a b = 1 →
    ∃ i, i < a.length ∧ poly a - poly b = X ^ i
  | x :: a, y :: b, h, h1 => by
    have hl : a.length = b.length := by simpa using h
    rw [dif_cons] at h1
    split at h1
    · rename_i e
      obtain ⟨i, hi, he⟩ := one_bit hl (by omega)
      refine ⟨i, by simp; omega, ?_⟩
      simp only [poly, e, hl]
      rw [← he]; ring
    · rename_i e
      have := dif_zero hl (by omega)
      subst this
      refine ⟨a.length, by simp, ?_⟩
      have h2 := add_self (X ^ a.length : Poly)
      cases x <;> cases y <;> simp [poly] at e ⊢
      linear_combination -h2

/-- Two bits, `k` apart; if they are as far apart as they can be they are the first and the last. -/
theorem two_bits : ∀ {a b : List Bool}, a.length = b.length → dif a b = 2 →
    ∃ i k, 0 < k ∧ i + k < a.length ∧ poly a - poly b = X ^ i * (X ^ k + 1) ∧
      (k + 1 = a.length → a.head? ≠ b.head? ∧ a.getLast? ≠ b.getLast?)
  | x :: a, y :: b, h, h1 => by
    have hl : a.length = b.length := by simpa using h
    rw [dif_cons] at h1
    split at h1
    · rename_i e
      obtain ⟨i, k, hk, hi, he, _⟩ := two_bits hl (by omega)
      refine ⟨i, k, hk, by simp; omega, ?_, ?_⟩
      · simp only [poly, e, hl]
        rw [← he]; ring
      · intro h2
        simp only [List.length_cons] at h2
        omega
    · rename_i e
      obtain ⟨i, hi, he⟩ := one_bit hl (by omega)
      refine ⟨i, a.length - i, by omega, by simp; omega, ?_, ?_⟩
      · have h2 := add_self (X ^ a.length : Poly)
        have h3 : (X : Poly) ^ i * (X ^ (a.length - i) + 1) = X ^ a.length + X ^ i := by
          rw [mul_add, ← pow_add, mul_one]; congr 2; omega
        rw [h3]
        have h4 : poly a = X ^ i + poly b := by rw [← he]; ring
        cases x <;> cases y <;> simp [poly, h4, hl] at e ⊢
        · rw [hl] at h2
          linear_combination -h2
        · ring
      · intro h2
        simp only [List.length_cons] at h2
        obtain rfl : i = 0 := by omega
        refine ⟨by simpa using e, ?_⟩
        have hne : a ≠ [] := by rintro rfl; simp at hi
        have hnb : b ≠ [] := by rintro rfl; simp at hl; exact hne hl
        intro h5
        -- the last bits are equal, so the difference has no constant term
        have h6 : a.getLast hne = b.getLast hnb := by
          rw [List.getLast?_cons, List.getLast?_cons, List.getLast?_eq_some_getLast hne, List.getLast?_eq_some_getLast hnb] at h5
          simpa using h5
        have split : ∀ (l : List Bool) (hl : l ≠ []), poly l = poly l.dropLast * X + (if l.getLast hl then 1 else 0) := by
          intro l hl
          conv_lhs => rw [← List.dropLast_append_getLast hl]
          rw [poly_append]
          simp [poly]
        have h7 : (poly a - poly b).coeff 0 = 0 := by
          rw [split a hne, split b hnb, h6]
          simp
        rw [he] at h7
        simp at h7

/-- What divides the difference of two bit strings that differ in two bits, divides x^k+1. -/
theorem two_bits_dvd {g : Poly} (hg : ∀ n, IsCoprime (X ^ n : Poly) g) {a b : List Bool} (hl : a.length = b.length) (h : dif a b = 2)
    (hd : g ∣ poly a - poly b) :
    ∃ k, 0 < k ∧ k < a.length ∧ g ∣ X ^ k + 1 ∧ (k + 1 = a.length → a.head? ≠ b.head? ∧ a.getLast? ≠ b.getLast?) := by
  obtain ⟨i, k, hk, hi, he, hx⟩ := two_bits hl h
  rw [he] at hd
  exact ⟨k, hk, by omega, (hg i).symm.dvd_of_dvd_mul_left hd, hx⟩

/-- The data followed by the checksum, highest bit first: a multiple of the polynomial but for a term that depends on the length only. -/
theorem code16 (d : Bytes) :
    g16 ∣ poly (bits d ++ bitsOf 16 (crc16 d).toNat) + val16 0xFFFF * X ^ (8 * d.length) := by
  have h := fold16 0xFFFF d
  rw [poly_append, bitsOf_length]
  have : poly (bits d) * X ^ 16 + poly (bitsOf 16 (crc16 d).toNat) + val16 0xFFFF * X ^ (8 * d.length) =
      val16 (d.foldl crc16Byte 0xFFFF) - (poly (bits d) * X ^ 16 + val16 0xFFFF * X ^ (8 * d.length)) := by
    rw [sub_eq]
    show _ = val16 (crc16 d) + _
    unfold val16
    ring
  rw [this]
  exact h

theorem code8 (d : Bytes) :
    g8 ∣ poly (bits (d ++ [crc8 d])) + val8 0xFF * X ^ (8 * d.length) := by
  have h := fold8 0xFF d
  rw [bits_snoc]
  have : poly (bits d) * X ^ 8 + val8 (crc8 d) + val8 0xFF * X ^ (8 * d.length) =
      val8 (d.foldl crc8Byte 0xFF) - (poly (bits d) * X ^ 8 + val8 0xFF * X ^ (8 * d.length)) := by
    rw [sub_eq]
    show _ = val8 (crc8 d) + _
    ring
  rw [this]
  exact h

/-- Data of at most 4093 bytes with its checksum: no two bits can be altered without the checksum telling. -/
theorem crc16_two {a b : Bytes} (hl : a.length = b.length) (hn : a.length ≤ 4093)
    (h : dif (bits a ++ bitsOf 16 (crc16 a).toNat) (bits b ++ bitsOf 16 (crc16 b).toNat) = 2) : False := by
  have hd := dvd_sub (code16 a) (code16 b)
  rw [hl] at hd
  have e : ∀ p q r : Poly, p + r - (q + r) = p - q := by intros; ring
  rw [e] at hd
  obtain ⟨k, h0, hk, hg, _⟩ := two_bits_dvd X_coprime_g16 (by simp [bits_length, bitsOf_length, hl]) h hd
  rw [List.length_append, bits_length, bitsOf_length] at hk
  exact order16 k h0 (by omega) hg

/-- Data of at most 15 bytes with its checksum: no two bits can be altered without the checksum telling, except the first and the last of 128. -/
theorem crc8_two {a b : Bytes} (hl : a.length = b.length) (hn : a.length ≤ 15) (h : dist (a ++ [crc8 a]) (b ++ [crc8 b]) = 2) :
    a.length = 15 ∧ (bits (a ++ [crc8 a])).head? ≠ (bits (b ++ [crc8 b])).head? ∧
      (bits (a ++ [crc8 a])).getLast? ≠ (bits (b ++ [crc8 b])).getLast? := by
  have hd := dvd_sub (code8 a) (code8 b)
  rw [hl] at hd
  have e : ∀ p q r : Poly, p + r - (q + r) = p - q := by intros; ring
  rw [e] at hd
  obtain ⟨k, h0, hk, hg, hx⟩ := two_bits_dvd X_coprime_g8 (by simp [bits_length, hl]) h hd
  have hlen : (bits (a ++ [crc8 a])).length = 8 * a.length + 8 := by rw [bits_length, List.length_append]; rfl
  rw [hlen] at hk hx
  by_cases hk' : k < 127
  · exact absurd hg (order8 k h0 hk')
  · exact ⟨by omega, hx (by omega)⟩

/-- x has order 127 modulo the polynomial of the header checksum. -/
theorem order8_dvd {n : Nat} (hn : n = 127) : g8 ∣ X ^ n + 1 := by
  have h := repeat8 n 1
  have e : Nat.repeat crc8Shift n 1 = 1 := by rw [hn]; decide +kernel
  rw [e, val8_one, one_mul, sub_eq, add_comm] at h
  exact h

theorem val8_top : val8 128 = X ^ 7 := by
  have : bitsOf 8 (128 : UInt8).toNat = true :: List.replicate 7 false := by decide +kernel
  unfold val8; rw [this]; simp only [poly, poly_zeros, List.length_replicate]; simp

theorem bits_cons (x : UInt8) (m : Bytes) : poly (bits (x :: m)) = val8 x * X ^ (8 * m.length) + poly (bits m) := by
  rw [show bits (x :: m) = bitsOf 8 x.toNat ++ bits m from rfl, poly_append, bits_length]
  rfl

/-- The highest bit of the first of 15 bytes alters only the lowest of the checksum. -/
theorem crc8_ends (x : UInt8) (m : Bytes) (hm : m.length = 14) : crc8 ((x ^^^ 128) :: m) = crc8 (x :: m) ^^^ 1 := by
  have h1 := fold8 0xFF ((x ^^^ 128) :: m)
  have h2 := fold8 0xFF (x :: m)
  change g8 ∣ val8 (crc8 ((x ^^^ 128) :: m)) - _ at h1
  change g8 ∣ val8 (crc8 (x :: m)) - _ at h2
  rw [bits_cons, val8_xor, val8_top] at h1
  rw [bits_cons] at h2
  have h3 := dvd_add (dvd_sub h1 h2) (order8_dvd (n := 7 + 8 * m.length + 8) (by omega))
  simp only [List.length_cons] at h3
  have e : val8 (crc8 ((x ^^^ 128) :: m)) - (((val8 x + X ^ 7) * X ^ (8 * m.length) + poly (bits m)) * X ^ 8 + val8 0xFF * X ^ (8 * (m.length + 1))) -
      (val8 (crc8 (x :: m)) - ((val8 x * X ^ (8 * m.length) + poly (bits m)) * X ^ 8 + val8 0xFF * X ^ (8 * (m.length + 1)))) + (X ^ (7 + 8 * m.length + 8) + 1) =
      val8 (crc8 ((x ^^^ 128) :: m)) - val8 (crc8 (x :: m) ^^^ 1) := by
    rw [val8_xor, val8_one]
    have h4 := add_self 1
    rw [pow_add, pow_add]
    generalize (X : Poly) ^ (8 * m.length) = u
    generalize (X : Poly) ^ (8 * (m.length + 1)) = v
    linear_combination h4
  rw [e] at h3
  have hd : (val8 (crc8 ((x ^^^ 128) :: m)) - val8 (crc8 (x :: m) ^^^ 1)).degree < g8.degree := by
    rw [g8_degree]
    exact lt_of_le_of_lt (degree_sub_le _ _) (max_lt (val8_degree _) (val8_degree _))
  have h4 := sub_eq_zero.mp (small_dvd g8_monic h3 hd)
  exact UInt8.toNat_inj.mp (bitsOf_inj (UInt8.toNat_lt _) (UInt8.toNat_lt _) (poly_inj (by simp [bitsOf_length]) h4))

/-- The register after `n` steps. -/
def run16 : Nat → Nat → Nat
  | 0, s => s
  | n + 1, s =>
    match (crc16Shift (UInt16.ofNat s)).toNat with
    | 0 => run16 n 0
    | t + 1 => run16 n (t + 1)

theorem run16_spec : ∀ (n : Nat) (s : UInt16), run16 n s.toNat = (Nat.repeat crc16Shift n s).toNat
  | 0, _ => rfl
  | n + 1, s => by
    rw [repeat_succ, ← run16_spec n, run16, UInt16.ofNat_toNat]
    split
    · rename_i h; rw [h]
    · rename_i h; rw [h]

set_option maxRecDepth 100000 in
theorem run16_order : run16 32767 1 = 1 := by decide +kernel

/-- x has order 32767 modulo the polynomial of the body checksum. -/
theorem order16_dvd {n : Nat} (hn : n = 32767) : g16 ∣ X ^ n + 1 := by
  have h := repeat16 n 1
  have e : Nat.repeat crc16Shift n 1 = 1 := by
    rw [hn]
    apply UInt16.toNat_inj.mp
    rw [← run16_spec]
    exact run16_order
  rw [e, val16_one, one_mul, sub_eq, add_comm] at h
  exact h

/-- The highest bit of the first of 4094 bytes alters only the lowest of the checksum. -/
theorem crc16_ends (x : UInt8) (m : Bytes) (hm : m.length = 4093) : crc16 ((x ^^^ 128) :: m) = crc16 (x :: m) ^^^ 1 := by
  have h1 := fold16 0xFFFF ((x ^^^ 128) :: m)
  have h2 := fold16 0xFFFF (x :: m)
  change g16 ∣ val16 (crc16 ((x ^^^ 128) :: m)) - _ at h1
  change g16 ∣ val16 (crc16 (x :: m)) - _ at h2
  rw [bits_cons, val8_xor, val8_top] at h1
  rw [bits_cons] at h2
  have h3 := dvd_add (dvd_sub h1 h2) (order16_dvd (n := 7 + 8 * m.length + 16) (by omega))
  simp only [List.length_cons] at h3
  clear hm
  have e : val16 (crc16 ((x ^^^ 128) :: m)) - (((val8 x + X ^ 7) * X ^ (8 * m.length) + poly (bits m)) * X ^ 16 + val16 0xFFFF * X ^ (8 * (m.length + 1))) -
      (val16 (crc16 (x :: m)) - ((val8 x * X ^ (8 * m.length) + poly (bits m)) * X ^ 16 + val16 0xFFFF * X ^ (8 * (m.length + 1)))) + (X ^ (7 + 8 * m.length + 16) + 1) =
      val16 (crc16 ((x ^^^ 128) :: m)) - val16 (crc16 (x :: m) ^^^ 1) := by
    rw [val16_xor, val16_one]
    have h4 := add_self 1
    rw [pow_add, pow_add]
    generalize (X : Poly) ^ (8 * m.length) = u
    generalize (X : Poly) ^ (8 * (m.length + 1)) = v
    linear_combination h4
  rw [e] at h3
  have hd : (val16 (crc16 ((x ^^^ 128) :: m)) - val16 (crc16 (x :: m) ^^^ 1)).degree < g16.degree := by
    rw [g16_degree]
    exact lt_of_le_of_lt (degree_sub_le _ _) (max_lt (val16_degree _) (val16_degree _))
  have h4 := sub_eq_zero.mp (small_dvd g16_monic h3 hd)
  exact UInt16.toNat_inj.mp (bitsOf_inj (UInt16.toNat_lt _) (UInt16.toNat_lt _) (poly_inj (by simp [bitsOf_length]) h4))

end Egts.Crc
