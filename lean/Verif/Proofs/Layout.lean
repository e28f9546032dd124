import Verif.Spec.Layout
import Verif.Proofs.PosWire
import Verif.Proofs.Frame
import Verif.Proofs.Depth
import Verif.Props.PosWire
import Verif.Props.Proto

/-! # The subrecord decoders on arbitrary bytes -/

namespace Egts
open Layout

/-! ## Reading at a position -/

theorem byteAt_u8 (b : Bytes) (i : Nat) : UInt8.ofNat (byteAt b i) = b.getD i 0 := UInt8.ofNat_toNat

theorem drop_cons {b : Bytes} {o : Nat} (h : o < b.length) : b.drop o = UInt8.ofNat (byteAt b o) :: b.drop (o + 1) := by
  rw [List.drop_eq_getElem_cons h, byteAt_u8, List.getD_eq_getElem?_getD, List.getElem?_eq_getElem h, Option.getD_some]

theorem readByte_at (b : Bytes) (o : Nat) (v : UInt8) (r : Bytes) :
    readByte (b.drop o) = .ok (v, r) ↔ o < b.length ∧ v = UInt8.ofNat (byteAt b o) ∧ r = b.drop (o + 1) := by
  by_cases h : o < b.length
  · rw [drop_cons h, readByte_cons, Except.ok.injEq, Prod.mk.injEq]
    exact ⟨fun ⟨a, b⟩ => ⟨h, a.symm, b.symm⟩, fun ⟨_, a, b⟩ => ⟨a.symm, b.symm⟩⟩
  · rw [List.drop_eq_nil_of_le (by omega), readByte_nil]
    simp [h]

theorem readerRead_at (b buf : Bytes) (o : Nat) (v r : Bytes) :
    readerRead buf (b.drop o) = .ok (v, r) ↔
      o < b.length ∧ v = (b.drop o).take buf.length ++ buf.drop (b.length - o) ∧ r = b.drop (o + buf.length) := by
  rw [readerRead]
  by_cases h : o < b.length
  · rw [if_neg (by intro e; have := congrArg List.length e; simp at this; omega), Except.ok.injEq, Prod.mk.injEq, List.length_drop,
      List.drop_drop]
    exact ⟨fun ⟨a, b⟩ => ⟨h, a.symm, b.symm⟩, fun ⟨_, a, b⟩ => ⟨a.symm, b.symm⟩⟩
  · rw [if_pos (List.drop_eq_nil_of_le (by omega))]
    simp [h]

theorem bufferRead_at (b buf : Bytes) (o : Nat) (hb : buf ≠ []) : bufferRead buf (b.drop o) = readerRead buf (b.drop o) := by
  simp [bufferRead, readerRead, hb]

theorem num_drop (b : Bytes) (o : Nat) : ∀ w i, num (b.drop o) i w = num b (o + i) w
  | 0, _ => rfl
  | w + 1, i => by rw [num, num, byteAt_drop, num_drop b o w (i + 1)]; rfl

theorem num2 (b : Bytes) (o : Nat) : num b o 2 = byteAt b o + 256 * byteAt b (o + 1) := by simp [num]
theorem num3 (b : Bytes) (o : Nat) : num b o 3 = byteAt b o + 256 * byteAt b (o + 1) + 65536 * byteAt b (o + 2) := by simp [num]; rw [show o + 1 + 1 = o + 2 from rfl]; omega
theorem num4 (b : Bytes) (o : Nat) :
    num b o 4 = byteAt b o + 256 * byteAt b (o + 1) + 65536 * byteAt b (o + 2) + 16777216 * byteAt b (o + 3) := by simp [num]; rw [show o + 1 + 1 = o + 2 from rfl, show o + 2 + 1 = o + 3 from rfl]; omega

theorem byteAt_cons0 (x : UInt8) (b : Bytes) : byteAt (x :: b) 0 = x.toNat := rfl
theorem byteAt_cons (x : UInt8) (b : Bytes) (i : Nat) : byteAt (x :: b) (i + 1) = byteAt b i := rfl
theorem byteAt_nil (i : Nat) : byteAt [] i = 0 := rfl

theorem le16_zero (c : Bytes) : le16 (c.take 2 ++ (zeros 2).drop c.length) = UInt16.ofNat (num c 0 2) := by
  rw [num2]
  match c with
  | [] => rfl
  | [x] => simp [zeros, le16, byteAt]
  | x :: y :: c => simp [zeros, le16, byteAt]

theorem le32_zero (c : Bytes) : le32 (c.take 4 ++ (zeros 4).drop c.length) = UInt32.ofNat (num c 0 4) := by
  rw [num4]
  match c with
  | [] => rfl
  | [x] => simp [zeros, le32, byteAt]
  | [x, y] => simp [zeros, le32, byteAt]
  | [x, y, z] => simp [zeros, le32, byteAt]
  | x :: y :: z :: w :: c => simp [zeros, le32, byteAt]

theorem le24_zero (c : Bytes) : le32 (c.take 3 ++ (zeros 3).drop c.length ++ [0]) = UInt32.ofNat (num c 0 3) := by
  rw [num3]
  match c with
  | [] => rfl
  | [x] => simp [zeros, le32, byteAt]
  | [x, y] => simp [zeros, le32, byteAt]
  | x :: y :: z :: c => simp [zeros, le32, byteAt]

theorem le16_at (b : Bytes) (o : Nat) : le16 ((b.drop o).take 2 ++ (zeros 2).drop (b.length - o)) = UInt16.ofNat (num b o 2) := by
  have := le16_zero (b.drop o)
  rwa [List.length_drop, num_drop] at this

theorem le32_at (b : Bytes) (o : Nat) : le32 ((b.drop o).take 4 ++ (zeros 4).drop (b.length - o)) = UInt32.ofNat (num b o 4) := by
  have := le32_zero (b.drop o)
  rwa [List.length_drop, num_drop] at this

theorem le24_at (b : Bytes) (o : Nat) : le32 ((b.drop o).take 3 ++ (zeros 3).drop (b.length - o) ++ [0]) = UInt32.ofNat (num b o 3) := by
  have := le24_zero (b.drop o)
  rwa [List.length_drop, num_drop] at this

/-- A two-byte field read into a buffer that holds zeros. -/
theorem u16_at (b : Bytes) (o : Nat) (v : Bytes) (r : Bytes) (h : readerRead (zeros 2) (b.drop o) = .ok (v, r)) :
    o < b.length ∧ le16 v = UInt16.ofNat (num b o 2) ∧ r = b.drop (o + 2) := by
  obtain ⟨h1, h2, h3⟩ := (readerRead_at _ _ _ _ _).mp h
  rw [zeros_length] at h2 h3
  subst h2
  exact ⟨h1, le16_at b o, h3⟩

/-! ## Flags -/

theorem substr_bit (x : UInt8) (i : Nat) (h : i < 8) : substr (fmt8 x) i (i + 1) = bitStr (x.toNat / 2 ^ (7 - i) % 2) := by
  match i, h with
  | 0, _ => exact bitStr_char x.toNat 7
  | 1, _ => exact bitStr_char x.toNat 6
  | 2, _ => exact bitStr_char x.toNat 5
  | 3, _ => exact bitStr_char x.toNat 4
  | 4, _ => exact bitStr_char x.toNat 3
  | 5, _ => exact bitStr_char x.toNat 2
  | 6, _ => exact bitStr_char x.toNat 1
  | 7, _ => exact bitStr_char x.toNat 0

theorem byteAt_lt (b : Bytes) (i : Nat) : byteAt b i < 256 := UInt8.toNat_lt _

theorem u8_toNat (b : Bytes) (i : Nat) : (UInt8.ofNat (byteAt b i)).toNat = byteAt b i := by rw [byteAt_u8]; rfl

section
variable (b : Bytes) (i : Nat)
theorem fl0 : substr (fmt8 (UInt8.ofNat (byteAt b i))) 0 1 = bitStr (bitAt b i 7) := by rw [substr_bit _ 0 (by omega), u8_toNat]; rfl
theorem fl1 : substr (fmt8 (UInt8.ofNat (byteAt b i))) 1 2 = bitStr (bitAt b i 6) := by rw [substr_bit _ 1 (by omega), u8_toNat]; rfl
theorem fl2 : substr (fmt8 (UInt8.ofNat (byteAt b i))) 2 3 = bitStr (bitAt b i 5) := by rw [substr_bit _ 2 (by omega), u8_toNat]; rfl
theorem fl3 : substr (fmt8 (UInt8.ofNat (byteAt b i))) 3 4 = bitStr (bitAt b i 4) := by rw [substr_bit _ 3 (by omega), u8_toNat]; rfl
theorem fl4 : substr (fmt8 (UInt8.ofNat (byteAt b i))) 4 5 = bitStr (bitAt b i 3) := by rw [substr_bit _ 4 (by omega), u8_toNat]; rfl
theorem fl5 : substr (fmt8 (UInt8.ofNat (byteAt b i))) 5 6 = bitStr (bitAt b i 2) := by rw [substr_bit _ 5 (by omega), u8_toNat]; rfl
theorem fl6 : substr (fmt8 (UInt8.ofNat (byteAt b i))) 6 7 = bitStr (bitAt b i 1) := by rw [substr_bit _ 6 (by omega), u8_toNat]; rfl
theorem fl7 : substr (fmt8 (UInt8.ofNat (byteAt b i))) 7 8 = bitStr (bitAt b i 0) := by rw [substr_bit _ 7 (by omega), u8_toNat]; rfl

theorem fl24 : substr (fmt8 (UInt8.ofNat (byteAt b i))) 2 4 = bitStr (bitAt b i 5) ++ bitStr (bitAt b i 4) := by
  rw [← fl2, ← fl3]; rfl
theorem fl35 : substr (fmt8 (UInt8.ofNat (byteAt b i))) 3 5 = bitStr (bitAt b i 4) ++ bitStr (bitAt b i 3) := by
  rw [← fl3, ← fl4]; rfl
end

theorem bitAt_lt (b : Bytes) (i k : Nat) : bitAt b i k < 2 := Nat.mod_lt _ (by omega)

theorem bitStr_ne_one {n : Nat} (h : n ≠ 1) : bitStr n ≠ one := fun e => h ((bitStr_one n).mp e)

/-! ## Optional fields -/

theorem optU8_at (b : Bytes) (i k : Nat) (old : UInt8) (o : Nat) (v : UInt8) (r : Bytes) :
    optU8 (bitStr (bitAt b i k)) old (b.drop o) = .ok (v, r) ↔
      (bitAt b i k = 1 → o < b.length) ∧ v = opt (bitAt b i k) (UInt8.ofNat (byteAt b o)) old ∧ r = b.drop (o + bitAt b i k) := by
  unfold optU8 opt
  have hl := bitAt_lt b i k
  by_cases h : bitAt b i k = 1
  · rw [if_pos ((bitStr_one _).mpr h), readByte_at]
    simp [h]
  · have h0 : bitAt b i k = 0 := by omega
    rw [if_neg (bitStr_ne_one h), pure_eq_ok, Except.ok.injEq, Prod.mk.injEq]
    simp [h0, eq_comm]

theorem optU16z_at (b : Bytes) (i k : Nat) (old : UInt16) (o : Nat) (v : UInt16) (t r : Bytes) :
    optU16 (bitStr (bitAt b i k)) old (zeros 2) (b.drop o) = .ok (v, t, r) ↔
      (bitAt b i k = 1 → o < b.length) ∧ v = opt (bitAt b i k) (UInt16.ofNat (num b o 2)) old ∧
        t = opt (bitAt b i k) ((b.drop o).take 2 ++ (zeros 2).drop (b.length - o)) (zeros 2) ∧ r = b.drop (o + 2 * bitAt b i k) := by
  unfold optU16 opt
  have hl := bitAt_lt b i k
  by_cases h : bitAt b i k = 1
  · simp only [if_pos ((bitStr_one _).mpr h), bind_eq_ok, Prod.exists, readerRead_at, pure_eq_ok, Except.ok.injEq, Prod.mk.injEq,
      zeros_length]
    constructor
    · rintro ⟨a, r1, ⟨h1, h2, h3⟩, h4, h5, h6⟩
      subst h2 h3 h4 h5 h6
      exact ⟨fun _ => h1, by rw [le16_at, if_pos h], by rw [if_pos h], by rw [h]⟩
    · rintro ⟨h1, h2, h3, h4⟩
      exact ⟨_, _, ⟨h1 h, rfl, rfl⟩, by rw [le16_at, h2, if_pos h], by rw [h3, if_pos h], by rw [h4, h]⟩
  · have h0 : bitAt b i k = 0 := by omega
    simp only [if_neg (bitStr_ne_one h), pure_eq_ok, Except.ok.injEq, Prod.mk.injEq]
    simp [h0, eq_comm]

theorem optU32_at (b : Bytes) (i k : Nat) (old : UInt32) (o : Nat) (v : UInt32) (r : Bytes) :
    optU32 (bitStr (bitAt b i k)) old (b.drop o) = .ok (v, r) ↔
      (bitAt b i k = 1 → o < b.length) ∧ v = opt (bitAt b i k) (UInt32.ofNat (num b o 4)) old ∧ r = b.drop (o + 4 * bitAt b i k) := by
  unfold optU32 opt
  have hl := bitAt_lt b i k
  by_cases h : bitAt b i k = 1
  · simp only [if_pos ((bitStr_one _).mpr h), bind_eq_ok, Prod.exists, readerRead_at, pure_eq_ok, Except.ok.injEq, Prod.mk.injEq,
      zeros_length]
    constructor
    · rintro ⟨a, r1, ⟨h1, h2, h3⟩, h4, h5⟩
      subst h2 h3 h4 h5
      exact ⟨fun _ => h1, by rw [le32_at, if_pos h], by rw [h]⟩
    · rintro ⟨h1, h2, h3⟩
      exact ⟨_, _, ⟨h1 h, rfl, rfl⟩, by rw [le32_at, h2, if_pos h], by rw [h3, h]⟩
  · have h0 : bitAt b i k = 0 := by omega
    simp only [if_neg (bitStr_ne_one h), pure_eq_ok, Except.ok.injEq, Prod.mk.injEq]
    simp [h0, eq_comm]

theorem num4_lt (b : Bytes) (o : Nat) : num b o 4 < 2 ^ 32 := by
  rw [num4]; have := byteAt_lt b o; have := byteAt_lt b (o+1); have := byteAt_lt b (o+2); have := byteAt_lt b (o+3); omega

theorem num2_lt (b : Bytes) (o : Nat) : num b o 2 < 2 ^ 16 := by
  rw [num2]; have := byteAt_lt b o; have := byteAt_lt b (o+1); omega

theorem optTime_at (b : Bytes) (i k : Nat) (old : GoTime) (o : Nat) (v : GoTime) (r : Bytes) :
    optTime (bitStr (bitAt b i k)) old (b.drop o) = .ok (v, r) ↔
      (bitAt b i k = 1 → o < b.length) ∧ v = opt (bitAt b i k) (timeOffset + (num b o 4 : Int) * 1000000000) old ∧
        r = b.drop (o + 4 * bitAt b i k) := by
  unfold optTime opt
  have hl := bitAt_lt b i k
  have ht : decTime (UInt32.ofNat (num b o 4)) = timeOffset + (num b o 4 : Int) * 1000000000 := by
    rw [decTime, UInt32.toNat_ofNat', Nat.mod_eq_of_lt (num4_lt b o)]
  by_cases h : bitAt b i k = 1
  · simp only [if_pos ((bitStr_one _).mpr h), bind_eq_ok, Prod.exists, readerRead_at, pure_eq_ok, Except.ok.injEq, Prod.mk.injEq,
      zeros_length]
    constructor
    · rintro ⟨a, r1, ⟨h1, h2, h3⟩, h4, h5⟩
      subst h2 h3 h4 h5
      exact ⟨fun _ => h1, by rw [le32_at, if_pos h, ht], by rw [h]⟩
    · rintro ⟨h1, h2, h3⟩
      exact ⟨_, _, ⟨h1 h, rfl, rfl⟩, by rw [le32_at, h2, if_pos h, ht], by rw [h3, h]⟩
  · have h0 : bitAt b i k = 0 := by omega
    simp only [if_neg (bitStr_ne_one h), pure_eq_ok, Except.ok.injEq, Prod.mk.injEq]
    simp [h0, eq_comm]

theorem optN_at (b : Bytes) (i k n : Nat) (old : Bytes) (o : Nat) (v : Bytes) (r : Bytes) :
    optN (bitStr (bitAt b i k)) n old (b.drop o) = .ok (v, r) ↔
      (bitAt b i k = 1 → o < b.length) ∧ v = opt (bitAt b i k) (text b o n) old ∧ r = b.drop (o + n * bitAt b i k) := by
  unfold optN opt
  have hl := bitAt_lt b i k
  by_cases h : bitAt b i k = 1
  · rw [if_pos ((bitStr_one _).mpr h), readerRead_at]
    simp [h, text, zeros]
  · have h0 : bitAt b i k = 0 := by omega
    rw [if_neg (bitStr_ne_one h), pure_eq_ok, Except.ok.injEq, Prod.mk.injEq]
    simp [h0, eq_comm]

/-! ## Fields read into a buffer that is reused -/

/-- What the three-byte buffer holds after `k` fields that begin at `s`. -/
def held (b : Bytes) (s : Nat) : Nat → Bytes
  | 0 => zeros 3
  | k + 1 => (b.drop (s + 3 * k)).take 3 ++ (held b s k).drop (b.length - (s + 3 * k))

theorem held_length (b : Bytes) (s : Nat) : ∀ k, (held b s k).length = 3
  | 0 => rfl
  | k + 1 => by
    rw [held, List.length_append, List.length_take, List.length_drop, List.length_drop, held_length b s k]
    omega

theorem le32_three (x y z : UInt8) : le32 ([x, y, z] ++ [0]) = UInt32.ofNat (x.toNat + 256 * y.toNat + 65536 * z.toNat) := by
  simp [le32]

theorem held_num (b : Bytes) (s k : Nat) (h : s + 3 * k < b.length) : le32 (held b s (k + 1) ++ [0]) = UInt32.ofNat (num24 b s k) := by
  have key : ∀ (old : Bytes), old.length = 3 → (k = 0 → old = zeros 3) → (k ≠ 0 → ∀ j < 3, byteAt old j = byteAt b (s + 3 * k + j - 3)) →
      le32 ((b.drop (s + 3 * k)).take 3 ++ old.drop (b.length - (s + 3 * k)) ++ [0]) = UInt32.ofNat (num24 b s k) := by
    intro old ho hz hn
    have e : num24 b s k = byteAt b (s + 3 * k) + 256 * (if s + 3 * k + 1 < b.length then byteAt b (s + 3 * k + 1) else byteAt old 1)
        + 65536 * (if s + 3 * k + 2 < b.length then byteAt b (s + 3 * k + 2) else byteAt old 2) := by
      unfold num24
      simp only [if_pos h]
      by_cases hk : k = 0
      · rw [hz hk]; simp [hk]; rfl
      · simp only [if_neg hk, hn hk 1 (by omega), hn hk 2 (by omega)]
    rw [e]
    generalize ho' : s + 3 * k = o at h ⊢
    obtain ⟨x, y, z, rfl⟩ : ∃ x y z, old = [x, y, z] := by
      match old, ho with
      | [x, y, z], _ => exact ⟨x, y, z, rfl⟩
    have hb0 : byteAt b o = byteAt (b.drop o) 0 := by rw [byteAt_drop]; rfl
    have hb1 : byteAt b (o + 1) = byteAt (b.drop o) 1 := by rw [byteAt_drop]
    have hb2 : byteAt b (o + 2) = byteAt (b.drop o) 2 := by rw [byteAt_drop]
    have e1 : (o + 1 < b.length) = (1 < (b.drop o).length) := by rw [List.length_drop]; apply propext; omega
    have e2 : (o + 2 < b.length) = (2 < (b.drop o).length) := by rw [List.length_drop]; apply propext; omega
    simp only [hb0, hb1, hb2, e1, e2, ← List.length_drop]
    have hne : b.drop o ≠ [] := by intro e; have := congrArg List.length e; simp at this; omega
    match hc : b.drop o with
    | [] => exact absurd hc hne
    | [u] => simp [le32, byteAt]
    | [u, v] => simp [le32, byteAt]
    | u :: v :: w :: c => simp [le32, byteAt]
  refine key _ (held_length b s k) (fun h => by rw [h]; rfl) ?_
  intro hk j hj
  obtain ⟨m, rfl⟩ : ∃ m, k = m + 1 := ⟨k - 1, by omega⟩
  have e : held b s (m + 1) = (b.drop (s + 3 * m)).take 3 := by
    rw [held, List.drop_eq_nil_of_le (as := held b s m) (by rw [held_length]; omega), List.append_nil]
  rw [e, show s + 3 * (m + 1) + j - 3 = s + 3 * m + j by omega]
  unfold byteAt
  rw [List.getD_eq_getElem?_getD, List.getD_eq_getElem?_getD, List.getElem?_take_of_lt hj, List.getElem?_drop]

theorem optU24_at (b : Bytes) (i j : Nat) (old : UInt32) (s k : Nat) (v : UInt32) (t r : Bytes) :
    optU24 (bitStr (bitAt b i j)) old (held b s k) (b.drop (s + 3 * k)) = .ok (v, t, r) ↔
      (bitAt b i j = 1 → s + 3 * k < b.length) ∧ v = opt (bitAt b i j) (UInt32.ofNat (num24 b s k)) old ∧
        t = held b s (k + bitAt b i j) ∧ r = b.drop (s + 3 * (k + bitAt b i j)) := by
  unfold optU24 opt
  have hl := bitAt_lt b i j
  by_cases h : bitAt b i j = 1
  · simp only [if_pos ((bitStr_one _).mpr h), bind_eq_ok, Prod.exists, readerRead_at, pure_eq_ok, Except.ok.injEq, Prod.mk.injEq,
      held_length]
    rw [h]
    constructor
    · rintro ⟨a, r1, ⟨h1, h2, h3⟩, h4, h5, h6⟩
      subst h2 h3 h4 h5 h6
      exact ⟨fun _ => h1, by rw [← held_num b s k h1, if_pos rfl]; rfl, rfl, by rw [Nat.mul_add, Nat.add_assoc]⟩
    · rintro ⟨h1, h2, h3, h4⟩
      exact ⟨_, _, ⟨h1 rfl, rfl, rfl⟩, by rw [h2, if_pos rfl, ← held_num b s k (h1 rfl)]; rfl, h3.symm, by rw [h4, Nat.mul_add, Nat.add_assoc]⟩
  · have h0 : bitAt b i j = 0 := by omega
    simp only [if_neg (bitStr_ne_one h), pure_eq_ok, Except.ok.injEq, Prod.mk.injEq]
    simp [h0, eq_comm]

/-- What the two-byte buffer holds after `k` fields that begin at 1. -/
def held2 (b : Bytes) : Nat → Bytes
  | 0 => zeros 2
  | k + 1 => (b.drop (1 + 2 * k)).take 2 ++ (held2 b k).drop (b.length - (1 + 2 * k))

theorem held2_length (b : Bytes) : ∀ k, (held2 b k).length = 2
  | 0 => rfl
  | k + 1 => by
    rw [held2, List.length_append, List.length_take, List.length_drop, List.length_drop, held2_length b k]
    omega

theorem held2_num (b : Bytes) (k o : Nat) (ho : 1 + 2 * k ≤ o) (h : o < b.length) :
    le16 ((b.drop o).take 2 ++ (held2 b k).drop (b.length - o)) = UInt16.ofNat (num16 b k o) := by
  have e : num16 b k o = byteAt b o + 256 * (if o + 1 < b.length then byteAt b (o + 1) else byteAt (held2 b k) 1) := by
    unfold num16
    by_cases hk : k = 0
    · subst hk; rfl
    · obtain ⟨m, rfl⟩ : ∃ m, k = m + 1 := ⟨k - 1, by omega⟩
      have e : held2 b (m + 1) = (b.drop (1 + 2 * m)).take 2 := by
        rw [held2, List.drop_eq_nil_of_le (as := held2 b m) (by rw [held2_length]; omega), List.append_nil]
      have e2 : byteAt (held2 b (m + 1)) 1 = byteAt b (2 * (m + 1)) := by
        rw [e, show 2 * (m + 1) = 1 + 2 * m + 1 by omega]
        unfold byteAt
        rw [List.getD_eq_getElem?_getD, List.getD_eq_getElem?_getD, List.getElem?_take_of_lt (by omega), List.getElem?_drop]
      rw [if_neg hk, e2]
  rw [e]
  obtain ⟨x, y, hxy⟩ : ∃ x y, held2 b k = [x, y] := by
    have hl := held2_length b k
    match held2 b k, hl with
    | [x, y], _ => exact ⟨x, y, rfl⟩
  rw [hxy]
  have hb0 : byteAt b o = byteAt (b.drop o) 0 := by rw [byteAt_drop]; rfl
  have hb1 : byteAt b (o + 1) = byteAt (b.drop o) 1 := by rw [byteAt_drop]
  have e1 : (o + 1 < b.length) = (1 < (b.drop o).length) := by rw [List.length_drop]; apply propext; omega
  simp only [hb0, hb1, e1, ← List.length_drop]
  have hne : b.drop o ≠ [] := by intro e; have := congrArg List.length e; simp at this; omega
  match hc : b.drop o with
  | [] => exact absurd hc hne
  | [u] => simp [le16, byteAt]
  | u :: v :: c => simp [le16, byteAt]

theorem optU16_at (b : Bytes) (i j : Nat) (old : UInt16) (k o : Nat) (ho : 1 + 2 * k ≤ o) (v : UInt16) (t r : Bytes) :
    optU16 (bitStr (bitAt b i j)) old (held2 b k) (b.drop o) = .ok (v, t, r) ↔
      (bitAt b i j = 1 → o < b.length) ∧ v = opt (bitAt b i j) (UInt16.ofNat (num16 b k o)) old ∧
        t = opt (bitAt b i j) ((b.drop o).take 2 ++ (held2 b k).drop (b.length - o)) (held2 b k) ∧ r = b.drop (o + 2 * bitAt b i j) := by
  unfold optU16 opt
  have hl := bitAt_lt b i j
  by_cases h : bitAt b i j = 1
  · simp only [if_pos ((bitStr_one _).mpr h), bind_eq_ok, Prod.exists, readerRead_at, pure_eq_ok, Except.ok.injEq, Prod.mk.injEq,
      held2_length]
    rw [h]
    constructor
    · rintro ⟨a, r1, ⟨h1, h2, h3⟩, h4, h5, h6⟩
      subst h2 h3 h4 h5 h6
      exact ⟨fun _ => h1, by rw [← held2_num b k o ho h1, if_pos rfl], by rw [if_pos rfl], rfl⟩
    · rintro ⟨h1, h2, h3, h4⟩
      exact ⟨_, _, ⟨h1 rfl, rfl, rfl⟩, by rw [h2, if_pos rfl, ← held2_num b k o ho (h1 rfl)], by rw [h3, if_pos rfl], h4.symm⟩
  · have h0 : bitAt b i j = 0 := by omega
    simp only [if_neg (bitStr_ne_one h), pure_eq_ok, Except.ok.injEq, Prod.mk.injEq]
    simp [h0, eq_comm]

/-! ## Steps of the decoders -/

theorem bind_ok_iff {α β : Type} {m : Except Err α} {P : Prop} {v : α} {f : α → Except Err β} {y : β}
    (h : ∀ a, m = .ok a ↔ P ∧ a = v) : (m >>= f) = .ok y ↔ P ∧ f v = .ok y := by
  rw [bind_eq_ok]
  exact ⟨fun ⟨a, ha, hf⟩ => by obtain ⟨p, rfl⟩ := (h a).mp ha; exact ⟨p, hf⟩, fun ⟨p, hf⟩ => ⟨v, (h v).mpr ⟨p, rfl⟩, hf⟩⟩

section
variable {β : Type} (b : Bytes) (y : β)

theorem bind_readByte (o : Nat) (f : UInt8 × Bytes → Except Err β) :
    (readByte (b.drop o) >>= f) = .ok y ↔ o < b.length ∧ f (UInt8.ofNat (byteAt b o), b.drop (o + 1)) = .ok y :=
  bind_ok_iff fun ⟨a, r⟩ => by rw [readByte_at, Prod.mk.injEq]

theorem bind_read (o n : Nat) (f : Bytes × Bytes → Except Err β) :
    (readerRead (zeros n) (b.drop o) >>= f) = .ok y ↔
      o < b.length ∧ f ((b.drop o).take n ++ (zeros n).drop (b.length - o), b.drop (o + n)) = .ok y :=
  bind_ok_iff fun ⟨a, r⟩ => by rw [readerRead_at, Prod.mk.injEq, zeros_length]

theorem bind_bread (o n : Nat) (hn : n ≠ 0) (f : Bytes × Bytes → Except Err β) :
    (bufferRead (zeros n) (b.drop o) >>= f) = .ok y ↔
      o < b.length ∧ f ((b.drop o).take n ++ (zeros n).drop (b.length - o), b.drop (o + n)) = .ok y := by
  rw [bufferRead_at _ _ _ (by intro h; have := congrArg List.length h; rw [zeros_length] at this; exact hn this)]
  exact bind_read b y o n f

theorem bind_optU8 (i k : Nat) (old : UInt8) (o : Nat) (f : UInt8 × Bytes → Except Err β) :
    (optU8 (bitStr (bitAt b i k)) old (b.drop o) >>= f) = .ok y ↔
      (bitAt b i k = 1 → o < b.length) ∧ f (opt (bitAt b i k) (UInt8.ofNat (byteAt b o)) old, b.drop (o + bitAt b i k)) = .ok y :=
  bind_ok_iff fun ⟨a, r⟩ => by rw [optU8_at, Prod.mk.injEq]

theorem bind_optU8c (i k s : Nat) (old : UInt8) (f : UInt8 × Bytes → Except Err β) :
    (optU8 (bitStr (bitAt b i k)) old (b.drop (s + count b i k)) >>= f) = .ok y ↔
      (bitAt b i k = 1 → s + count b i k < b.length) ∧
        f (opt (bitAt b i k) (UInt8.ofNat (byteAt b (s + count b i k))) old, b.drop (s + count b i (k + 1))) = .ok y :=
  bind_ok_iff fun ⟨a, r⟩ => by rw [optU8_at, Prod.mk.injEq, count, Nat.add_assoc]

theorem bind_optN (i k n : Nat) (old : Bytes) (o : Nat) (f : Bytes × Bytes → Except Err β) :
    (optN (bitStr (bitAt b i k)) n old (b.drop o) >>= f) = .ok y ↔
      (bitAt b i k = 1 → o < b.length) ∧ f (opt (bitAt b i k) (text b o n) old, b.drop (o + n * bitAt b i k)) = .ok y :=
  bind_ok_iff fun ⟨a, r⟩ => by rw [optN_at, Prod.mk.injEq]

theorem bind_optU32 (i k : Nat) (old : UInt32) (o : Nat) (f : UInt32 × Bytes → Except Err β) :
    (optU32 (bitStr (bitAt b i k)) old (b.drop o) >>= f) = .ok y ↔
      (bitAt b i k = 1 → o < b.length) ∧ f (opt (bitAt b i k) (UInt32.ofNat (num b o 4)) old, b.drop (o + 4 * bitAt b i k)) = .ok y :=
  bind_ok_iff fun ⟨a, r⟩ => by rw [optU32_at, Prod.mk.injEq]

theorem bind_optTime (i k : Nat) (old : GoTime) (o : Nat) (f : GoTime × Bytes → Except Err β) :
    (optTime (bitStr (bitAt b i k)) old (b.drop o) >>= f) = .ok y ↔
      (bitAt b i k = 1 → o < b.length) ∧
        f (opt (bitAt b i k) (timeOffset + (num b o 4 : Int) * 1000000000) old, b.drop (o + 4 * bitAt b i k)) = .ok y :=
  bind_ok_iff fun ⟨a, r⟩ => by rw [optTime_at, Prod.mk.injEq]

theorem bind_optU24c (i k s : Nat) (old : UInt32) (f : UInt32 × Bytes × Bytes → Except Err β) :
    (optU24 (bitStr (bitAt b i k)) old (held b s (count b i k)) (b.drop (s + 3 * count b i k)) >>= f) = .ok y ↔
      (bitAt b i k = 1 → s + 3 * count b i k < b.length) ∧
        f (opt (bitAt b i k) (UInt32.ofNat (num24 b s (count b i k))) old, held b s (count b i (k + 1)),
          b.drop (s + 3 * count b i (k + 1))) = .ok y :=
  bind_ok_iff fun ⟨a, t, r⟩ => by rw [optU24_at, Prod.mk.injEq, Prod.mk.injEq]; rfl

/-- A two-byte field with its own buffer. -/
theorem bind_optU16z (i k : Nat) (old : UInt16) (o : Nat) (f : UInt16 × Bytes × Bytes → Except Err β) :
    (optU16 (bitStr (bitAt b i k)) old (zeros 2) (b.drop o) >>= f) = .ok y ↔
      (bitAt b i k = 1 → o < b.length) ∧ f (opt (bitAt b i k) (UInt16.ofNat (num b o 2)) old,
        opt (bitAt b i k) ((b.drop o).take 2 ++ (zeros 2).drop (b.length - o)) (zeros 2), b.drop (o + 2 * bitAt b i k)) = .ok y :=
  bind_ok_iff fun ⟨a, t, r⟩ => by rw [optU16z_at, Prod.mk.injEq, Prod.mk.injEq]

/-- A two-byte field of extended position data. -/
theorem bind_optU16 (i j : Nat) (old : UInt16) (k : Nat) (f : UInt16 × Bytes × Bytes → Except Err β) :
    (optU16 (bitStr (bitAt b i j)) old (held2 b k) (b.drop (1 + 2 * k)) >>= f) = .ok y ↔
      (bitAt b i j = 1 → 1 + 2 * k < b.length) ∧
        f (opt (bitAt b i j) (UInt16.ofNat (num16 b k (1 + 2 * k))) old, held2 b (k + bitAt b i j), b.drop (1 + 2 * (k + bitAt b i j))) = .ok y := by
  apply bind_ok_iff
  rintro ⟨a, t, r⟩
  rw [optU16_at b i j old k _ (Nat.le_refl _), Prod.mk.injEq, Prod.mk.injEq]
  have hl := bitAt_lt b i j
  have e : opt (bitAt b i j) ((b.drop (1 + 2 * k)).take 2 ++ (held2 b k).drop (b.length - (1 + 2 * k))) (held2 b k) =
      held2 b (k + bitAt b i j) := by
    unfold opt
    by_cases h : bitAt b i j = 1
    · rw [if_pos h, h]; rfl
    · rw [if_neg h, show bitAt b i j = 0 by omega]; rfl
  rw [e, show 1 + 2 * k + 2 * bitAt b i j = 1 + 2 * (k + bitAt b i j) by omega]

/-- The last one. -/
theorem bind_optU16' (i j : Nat) (old : UInt16) (k o : Nat) (ho : 1 + 2 * k ≤ o) (f : UInt16 × Bytes × Bytes → Except Err β) :
    (optU16 (bitStr (bitAt b i j)) old (held2 b k) (b.drop o) >>= f) = .ok y ↔
      (bitAt b i j = 1 → o < b.length) ∧ f (opt (bitAt b i j) (UInt16.ofNat (num16 b k o)) old,
        opt (bitAt b i j) ((b.drop o).take 2 ++ (held2 b k).drop (b.length - o)) (held2 b k), b.drop (o + 2 * bitAt b i j)) = .ok y :=
  bind_ok_iff fun ⟨a, t, r⟩ => by rw [optU16_at b i j old k o ho, Prod.mk.injEq, Prod.mk.injEq]
end

/-! ## The kinds of subrecords -/

theorem ok_pure {α : Type} (x y : α) : (pure x : Except Err α) = .ok y ↔ y = x := by
  rw [pure_eq_ok, Except.ok.injEq, eq_comm]

theorem begun_nil (b : Bytes) : Begun b [] ↔ True := by simp [Begun]
theorem begun_cons (b : Bytes) (f : Nat × Nat) (l : List (Nat × Nat)) : Begun b (f :: l) ↔ (f.1 = 1 → f.2 < b.length) ∧ Begun b l := by
  simp [Begun]

theorem resp_read (b : Bytes) (y : SrResponse) (r : Bytes) :
    SrResponse.decodeHead b = .ok (y, r) ↔ 3 ≤ b.length ∧ y = SrResponse.read b ∧ r = b.drop 3 := by
  rw [SrResponse.decodeHead]
  conv => lhs; rw [show b = b.drop 0 from rfl, bind_bread _ _ _ _ (by omega)]
  simp only [bind_readByte, ok_pure, Prod.mk.injEq, le16_at]
  constructor
  · rintro ⟨h1, h2, h3, h4⟩; exact ⟨by omega, h3, h4⟩
  · rintro ⟨h1, h3, h4⟩; exact ⟨by omega, by omega, h3, h4⟩

theorem result_read (d0 : SrResultCode) (b : Bytes) (y : SrResultCode) :
    SrResultCode.decode d0 b = .ok y ↔ 1 ≤ b.length ∧ y = SrResultCode.read b := by
  rw [SrResultCode.decode]
  conv => lhs; rw [show b = b.drop 0 from rfl]
  simp only [bind_readByte, ok_pure]
  rfl

theorem state_read (d0 : SrStateData) (b : Bytes) (y : SrStateData) :
    SrStateData.decode d0 b = .ok y ↔ 5 ≤ b.length ∧ y = SrStateData.read b := by
  rw [SrStateData.decode]
  conv => lhs; rw [show b = b.drop 0 from rfl]
  simp only [bind_readByte, ok_pure, fl5, fl6, fl7]
  constructor
  · rintro ⟨_, _, _, _, h, h5⟩; exact ⟨h, h5⟩
  · rintro ⟨h, h5⟩; exact ⟨by omega, by omega, by omega, by omega, h, h5⟩

theorem absCntr_read (d0 : SrAbsCntrData) (b : Bytes) (y : SrAbsCntrData) :
    SrAbsCntrData.decode d0 b = .ok y ↔ 2 ≤ b.length ∧ y = SrAbsCntrData.read b := by
  rw [SrAbsCntrData.decode]
  conv => lhs; rw [show b = b.drop 0 from rfl]
  simp only [bind_readByte, bind_read, ok_pure, le24_at]
  constructor
  · rintro ⟨_, h, h5⟩; exact ⟨h, h5⟩
  · rintro ⟨h, h5⟩; exact ⟨by omega, h, h5⟩

theorem absAn_read (d0 : SrAbsAnSensData) (b : Bytes) (y : SrAbsAnSensData) :
    SrAbsAnSensData.decode d0 b = .ok y ↔ 4 ≤ b.length ∧ y = SrAbsAnSensData.read b := by
  unfold SrAbsAnSensData.decode SrAbsAnSensData.read
  by_cases h : b.length < 4
  · rw [if_pos h]
    simp; omega
  · rw [if_neg h, Except.ok.injEq, num3]
    match b, Nat.le_of_not_lt h with
    | w :: x :: y' :: z :: b, _ =>
      have e : le32 (w :: x :: y' :: z :: b) >>> 8 = UInt32.ofNat (x.toNat + 256 * y'.toNat + 65536 * z.toNat) := by
        rw [← UInt32.toNat_inj]
        have := w.toNat_lt; have := x.toNat_lt; have := y'.toNat_lt; have := z.toNat_lt
        simp [le32, UInt32.toNat_shiftRight]
        omega
      rw [e]
      simp [byteAt, eq_comm]

theorem disp_read (d0 : SrDispatcherIdentity) (b : Bytes) (y : SrDispatcherIdentity) :
    SrDispatcherIdentity.decode d0 b = .ok y ↔ 2 ≤ b.length ∧ y = SrDispatcherIdentity.read b := by
  rw [SrDispatcherIdentity.decode]
  conv => lhs; rw [show b = b.drop 0 from rfl]
  simp only [bind_readByte]
  rw [bind_bread _ _ _ _ (by omega)]
  simp only [ok_pure, le32_at]
  constructor
  · rintro ⟨_, h, h5⟩; exact ⟨h, h5⟩
  · rintro ⟨h, h5⟩; exact ⟨by omega, h, h5⟩

theorem num_flags : ∀ n : Fin 256, parseFlags (substr (fmt8 (UInt8.ofNat n)) 5 8) = .ok (UInt8.ofNat (n % 8)) := by decide +kernel

theorem liquid_read (d0 : SrLiquidLevelSensor) (b : Bytes) (y : SrLiquidLevelSensor) :
    SrLiquidLevelSensor.decode d0 b = .ok y ↔ 4 ≤ b.length ∧ y = SrLiquidLevelSensor.read b := by
  rw [SrLiquidLevelSensor.decode]
  conv => lhs; rw [show b = b.drop 0 from rfl]
  simp only [bind_readByte]
  rw [show parseFlags (substr (fmt8 (UInt8.ofNat (byteAt b 0))) 5 8) = .ok (UInt8.ofNat (byteAt b 0 % 8)) from num_flags ⟨_, byteAt_lt b 0⟩]
  simp only [ok_bind, bind_read, ok_pure, le16_at, le32_at, fl1, fl24, fl4]
  constructor
  · rintro ⟨_, _, h, h5⟩; exact ⟨h, h5⟩
  · rintro ⟨h, h5⟩; exact ⟨by omega, by omega, h, h5⟩

theorem extPos_read (d0 : SrExtPosData) (b : Bytes) (y : SrExtPosData) :
    SrExtPosData.decode d0 b = .ok y ↔ (1 ≤ b.length ∧ Begun b (SrExtPosData.fields b)) ∧ y = SrExtPosData.read d0 b := by
  rw [SrExtPosData.decode]
  conv => lhs; rw [show b = b.drop 0 from rfl]
  simp only [bind_readByte, fl3, fl4, fl5, fl6, fl7]
  rw [show zeros 2 = held2 b 0 from rfl, show 0 + 1 = 1 + 2 * 0 from rfl]
  simp only [bind_optU16, bind_optU8]
  rw [bind_optU16' _ _ _ _ _ _ _ (by omega)]
  simp only [ok_pure, SrExtPosData.fields, begun_cons, begun_nil, SrExtPosData.read, Nat.zero_add, Nat.mul_zero, Nat.add_zero, and_true]
  tauto

theorem counters_read (d0 : SrCountersData) (b : Bytes) (y : SrCountersData) :
    SrCountersData.decode d0 b = .ok y ↔ (1 ≤ b.length ∧ Begun b (SrCountersData.fields b)) ∧ y = SrCountersData.read d0 b := by
  rw [SrCountersData.decode]
  conv => lhs; rw [show b = b.drop 0 from rfl]
  simp only [bind_readByte, fl0, fl1, fl2, fl3, fl4, fl5, fl6, fl7]
  rw [show zeros 3 = held b 1 (count b 0 0) from rfl, show 0 + 1 = 1 + 3 * count b 0 0 from rfl]
  simp only [bind_optU24c, Nat.reduceAdd, Nat.zero_add]
  simp only [ok_pure, SrCountersData.fields, show List.range 8 = [0, 1, 2, 3, 4, 5, 6, 7] from rfl, List.map, begun_cons, begun_nil,
    SrCountersData.read, and_true, and_assoc]
  rfl

theorem adSens_read (d0 : SrAdSensorsData) (b : Bytes) (y : SrAdSensorsData) :
    SrAdSensorsData.decode d0 b = .ok y ↔ (3 ≤ b.length ∧ Begun b (SrAdSensorsData.fields b)) ∧ y = SrAdSensorsData.read d0 b := by
  rw [SrAdSensorsData.decode]
  conv => lhs; rw [show b = b.drop 0 from rfl]
  simp only [bind_readByte, fl0, fl1, fl2, fl3, fl4, fl5, fl6, fl7]
  rw [show b.drop (0 + 1 + 1 + 1) = b.drop (3 + count b 0 0) from rfl]
  simp only [bind_optU8c, Nat.reduceAdd, Nat.zero_add]
  rw [show zeros 3 = held b (3 + count b 0 8) (count b 2 0) from rfl,
    show b.drop (3 + count b 0 8) = b.drop (3 + count b 0 8 + 3 * count b 2 0) from rfl]
  simp only [bind_optU24c, Nat.reduceAdd, Nat.zero_add]
  simp only [ok_pure, SrAdSensorsData.fields, show List.range 8 = [0, 1, 2, 3, 4, 5, 6, 7] from rfl, List.map, List.cons_append,
    List.nil_append, begun_cons, begun_nil, SrAdSensorsData.read, and_true, and_assoc]
  constructor
  · rintro ⟨_, _, h⟩; exact h
  · rintro ⟨h1, h⟩; exact ⟨by omega, by omega, h1, h⟩

theorem term_read (d0 : SrTermIdentity) (b : Bytes) (y : SrTermIdentity) :
    SrTermIdentity.decode d0 b = .ok y ↔ (5 ≤ b.length ∧ Begun b (SrTermIdentity.fields b)) ∧ y = SrTermIdentity.read d0 b := by
  rw [SrTermIdentity.decode]
  conv => lhs; rw [show b = b.drop 0 from rfl]
  simp only [bind_readByte, bind_read, bind_optN, bind_optU16z, fl0, fl1, fl2, fl3, fl4, fl5, fl6, fl7]
  simp only [ok_pure, SrTermIdentity.fields, SrTermIdentity.starts, List.zip, List.zipWith, begun_cons, begun_nil, SrTermIdentity.read,
    and_true, and_assoc, Nat.reduceAdd, Nat.zero_add, le32_at]
  constructor
  · rintro ⟨_, h⟩; exact h
  · rintro ⟨h1, h⟩; exact ⟨by omega, h1, h⟩

theorem cString_iff (b s r : Bytes) : readCString b = .ok (s, r) ↔ NoNul s ∧ b = s ++ [0] ++ r := by
  induction b generalizing s with
  | nil => simp [readCString]
  | cons x b ih =>
    by_cases h : x = 0
    · subst h
      rw [readCString]
      simp only [if_true, Except.ok.injEq, Prod.mk.injEq]
      constructor
      · rintro ⟨rfl, rfl⟩; simp [NoNul]
      · rintro ⟨h1, h2⟩
        cases s with
        | nil => simpa using h2
        | cons c s => simp only [List.cons_append, List.cons.injEq] at h2; exact absurd (h2.1 ▸ List.mem_cons_self) h1
    · have e : readCString (x :: b) = .ok (s, r) ↔ ∃ s' r', readCString b = .ok (s', r') ∧ x :: s' = s ∧ r' = r := by
        rw [readCString, if_neg h]
        cases hc : readCString b with
        | error e => simp
        | ok p => obtain ⟨s', r'⟩ := p; simp [and_comm]
      rw [e]
      constructor
      · rintro ⟨s', r', h1, rfl, rfl⟩
        obtain ⟨h2, rfl⟩ := (ih _).mp h1
        refine ⟨?_, rfl⟩
        intro hm
        rcases List.mem_cons.mp hm with h3 | h3
        · exact h h3.symm
        · exact h2 h3
      · rintro ⟨h1, h2⟩
        cases s with
        | nil => simp only [List.nil_append, List.cons_append, List.cons.injEq] at h2; exact absurd h2.1 h
        | cons c s =>
          simp only [List.cons_append, List.cons.injEq] at h2
          obtain ⟨rfl, rfl⟩ := h2
          exact ⟨s, r, (ih _).mpr ⟨fun hm => h1 (List.mem_cons_of_mem _ hm), by simp⟩, rfl, rfl⟩

theorem auth_read (d0 : SrAuthInfo) (b : Bytes) (y : SrAuthInfo) : SrAuthInfo.decode d0 b = .ok y ↔ SrAuthInfo.Read d0 b y := by
  simp only [SrAuthInfo.decode, bind_eq_ok, Prod.exists, cString_iff, SrAuthInfo.Read]
  constructor
  · rintro ⟨u, r, ⟨h1, rfl⟩, p, r2, ⟨h2, rfl⟩, h⟩
    split at h
    · simp only [bind_eq_ok, Prod.exists, cString_iff, ok_pure] at h
      obtain ⟨q, r3, ⟨h3, rfl⟩, rfl⟩ := h
      exact ⟨h1, h2, .inr ⟨r3, by simp, h3⟩⟩
    · rename_i hr
      simp only [ne_eq, not_not] at hr
      subst hr
      rw [ok_pure] at h
      subst h
      exact ⟨h1, h2, .inl ⟨by simp, rfl⟩⟩
  · rintro ⟨h1, h2, ⟨rfl, h3⟩ | ⟨rest, rfl, h3⟩⟩
    · refine ⟨y.userName, y.userPassword ++ [0], ⟨h1, by simp⟩, y.userPassword, [], ⟨h2, by simp⟩, ?_⟩
      rw [if_neg (by simp), ← h3]
      rfl
    · refine ⟨y.userName, y.userPassword ++ [0] ++ y.serverSequence ++ [0] ++ rest, ⟨h1, by simp⟩, y.userPassword,
        y.serverSequence ++ [0] ++ rest, ⟨h2, by simp⟩, ?_⟩
      rw [if_pos (by simp)]
      simp only [bind_eq_ok, Prod.exists, cString_iff, ok_pure]
      exact ⟨_, rest, ⟨h3, rfl⟩, rfl⟩

theorem module_read (d0 : SrModuleData) (b : Bytes) (y : SrModuleData) : SrModuleData.decode d0 b = .ok y ↔ SrModuleData.Read b y := by
  rw [SrModuleData.decode]
  conv => lhs; rw [show b = b.drop 0 from rfl]
  simp only [bind_readByte, bind_read, bind_eq_ok (x := readCString _), Prod.exists, cString_iff, ok_pure, le16_at, le32_at, Nat.reduceAdd,
    Nat.zero_add, SrModuleData.Read]
  have e1 : (UInt32.ofNat (num b 1 4)).toNat = num b 1 4 := by rw [UInt32.toNat_ofNat', Nat.mod_eq_of_lt (num4_lt b 1)]
  have e2 : ∀ o, (UInt16.ofNat (num b o 2)).toNat = num b o 2 := fun o => by rw [UInt16.toNat_ofNat', Nat.mod_eq_of_lt (num2_lt b o)]
  constructor
  · rintro ⟨_, _, _, _, _, h, s, r, ⟨h1, h2⟩, t, r2, ⟨h3, h4⟩, rfl⟩
    subst h4
    exact ⟨h, u8_toNat _ _, e1, e2 _, e2 _, u8_toNat _ _, u8_toNat _ _, h1, h3, r2, by rw [h2]; simp⟩
  · rintro ⟨h, g1, g2, g3, g4, g5, g6, h1, h2, r2, h3⟩
    refine ⟨by omega, by omega, by omega, by omega, by omega, h, y.serialNumber, y.description ++ [0] ++ r2, ⟨h1, by rw [h3]; simp⟩,
      y.description, r2, ⟨h2, rfl⟩, ?_⟩
    rw [← g1, ← g2, ← g3, ← g4, ← g5, ← g6]
    simp

/-! ## Subrecords -/

theorem ok_some_map {α : Type} (x : Except Err α) (c : α → SubData) (d : SubData) :
    (x >>= fun a => pure (some (c a))) = .ok (some d) ↔ ∃ a, x = .ok a ∧ d = c a := by
  simp only [bind_eq_ok, pure_eq_ok, Except.ok.injEq, Option.some.injEq]
  exact exists_congr fun a => and_congr_right fun _ => eq_comm

theorem ok_none_map {α : Type} (x : Except Err α) (c : α → SubData) :
    (x >>= fun a => pure (some (c a))) = .ok none ↔ False := by
  simp [bind_eq_ok, pure_eq_ok]

theorem exists_read {α : Type} (P : Prop) (v : α) (c : α → SubData) (d : SubData) : (∃ a, (P ∧ a = v) ∧ d = c a) ↔ P ∧ d = c v :=
  ⟨fun ⟨_, ⟨p, h⟩, hd⟩ => ⟨p, h ▸ hd⟩, fun ⟨p, hd⟩ => ⟨v, ⟨p, rfl⟩, hd⟩⟩

theorem sub_iff (env : Env) (f : Bytes → Except Err SrResponse) (t : UInt8) (len : UInt16) (b : Bytes) (d : SubData) :
    subDecode env f t len b = .ok (some d) ↔ IsKind t.toNat len.toNat b d ∨ (t.toNat = 0 ∧ ∃ y, f b = .ok y ∧ d = .resp y) := by
  have hlen : len.toNat = 5 ↔ len = 5 := by rw [← UInt16.toNat_inj]; rfl
  unfold subDecode IsKind
  split
  case _ ht => simp only [ht, ok_some_map, C61_pos_decode_exact, exists_read]; simp [and_assoc]
  case _ ht => simp only [ht, ok_some_map, term_read, exists_read]; simp [and_assoc]
  case _ ht => simp only [ht, ok_some_map, module_read]; simp
  case _ ht => simp only [ht, ok_some_map]; simp
  case _ ht => simp only [ht, ok_some_map, result_read, exists_read]; simp
  case _ ht => simp only [ht, ok_some_map, extPos_read, exists_read]; simp [and_assoc]
  case _ ht => simp only [ht, ok_some_map, adSens_read, exists_read]; simp [and_assoc]
  case _ ht =>
    by_cases hl : len = 5
    · simp only [ht, hlen, if_pos hl, ok_some_map, state_read, exists_read]; simp [hl]
    · simp only [ht, hlen, if_neg hl]; simp [hl]
  case _ ht => simp only [ht, ok_some_map, state_read, exists_read]; simp
  case _ ht => simp only [ht, ok_some_map, liquid_read, exists_read]; simp
  case _ ht => simp only [ht, ok_some_map, absCntr_read, exists_read]; simp
  case _ ht => simp only [ht, ok_some_map, auth_read]; simp
  case _ ht => simp only [ht, ok_some_map, counters_read, exists_read]; simp [and_assoc]
  case _ ht => simp only [ht, ok_some_map, C76_decode_iff]; simp [and_assoc]
  case _ ht => simp only [ht, ok_some_map, absAn_read, exists_read]; simp
  case _ ht => simp only [ht, ok_some_map, disp_read, exists_read]; simp
  case _ => simp_all [pure_eq_ok]

theorem sub_none_iff (env : Env) (f : Bytes → Except Err SrResponse) (t : UInt8) (len : UInt16) (b : Bytes) :
    subDecode env f t len b = .ok none ↔ t.toNat ∉ knownTypes := by
  unfold subDecode knownTypes
  split
  case h_8 ht =>
    simp only [ht]
    by_cases hl : len = 5
    · simp only [if_pos hl, ok_none_map]; simp
    · simp only [if_neg hl]; simp
  case h_17 => simp_all [pure_eq_ok]
  all_goals rename_i ht; simp only [ok_none_map, ht]; simp

end Egts
