import Verif.Model.Utf8
import Verif.Spec.Utf8
import Mathlib.Tactic.Push

/-! # `utf8.DecodeRuneInString` finds the encoded characters -/

namespace Egts
open Utf8

theorem ofNat_eq {a : UInt8} {n : Nat} (hn : n < 256) : UInt8.ofNat n = a ↔ n = a.toNat := by
  constructor
  · rintro rfl; simp [UInt8.toNat_ofNat', Nat.mod_eq_of_lt hn]
  · rintro rfl; simp

theorem runeAt_sound {s : Bytes} {n k : Nat} (h : runeAt s = some (n, k)) : Scalar n ∧ s.take k = enc n ∧ k = (enc n).length := by
  unfold runeAt at h
  split at h
  · cases h
  · rename_i a r
    have ha := a.toNat_lt
    simp only at h
    split at h
    · cases h
      refine ⟨.inl (by omega), ?_⟩
      unfold enc
      rw [if_pos (by assumption)]
      simp
    · split at h
      · cases h
      · split at h
        · split at h
          · rename_i b r
            have hb := b.toNat_lt
            split at h
            · cases h
            · rename_i h0 h1 h2 h3
              push Not at h3
              cases h
              refine ⟨.inl (by omega), ?_⟩
              unfold enc
              rw [if_neg (by omega), if_pos (by omega)]
              refine ⟨?_, rfl⟩
              simp only [List.take_succ_cons, List.take_zero, List.cons.injEq, and_true, eq_comm (b := UInt8.ofNat _)]
              rw [ofNat_eq (by omega), ofNat_eq (by omega)]
              omega
          · cases h
        · split at h
          · split at h
            · rename_i b c r
              have hb := b.toNat_lt
              have hc := c.toNat_lt
              split at h
              · cases h
              · rename_i h0 h1 h2 h3 h4
                push Not at h4
                have hlo : acceptLo a.toNat ≤ b.toNat := by omega
                have hhi : b.toNat ≤ acceptHi a.toNat := by omega
                unfold acceptLo at hlo
                unfold acceptHi at hhi
                cases h
                have hsc : Scalar (a.toNat % 16 * 4096 + b.toNat % 64 * 64 + c.toNat % 64) := by
                  unfold Scalar
                  (repeat' split at hlo) <;> (repeat' split at hhi) <;> omega
                refine ⟨hsc, ?_⟩
                unfold enc
                rw [if_neg (by (repeat' split at hlo) <;> (repeat' split at hhi) <;> omega), if_neg (by (repeat' split at hlo) <;> (repeat' split at hhi) <;> omega),
                  if_pos (by omega)]
                refine ⟨?_, rfl⟩
                simp only [List.take_succ_cons, List.take_zero, List.cons.injEq, and_true, eq_comm (b := UInt8.ofNat _)]
                have : 0x80 ≤ b.toNat ∧ b.toNat ≤ 0xBF := by (repeat' split at hlo) <;> (repeat' split at hhi) <;> omega
                rw [ofNat_eq (by omega), ofNat_eq (by omega), ofNat_eq (by omega)]
                omega
            · cases h
          · split at h
            · split at h
              · rename_i b c d r
                have hb := b.toNat_lt
                have hc := c.toNat_lt
                have hd := d.toNat_lt
                split at h
                · cases h
                · rename_i h0 h1 h2 h3 h4 h5
                  push Not at h5
                  have hlo : acceptLo a.toNat ≤ b.toNat := by omega
                  have hhi : b.toNat ≤ acceptHi a.toNat := by omega
                  unfold acceptLo at hlo
                  unfold acceptHi at hhi
                  cases h
                  have hr : 0x80 ≤ b.toNat ∧ b.toNat ≤ 0xBF ∧ (a.toNat = 0xF0 → 0x90 ≤ b.toNat) ∧ (a.toNat = 0xF4 → b.toNat ≤ 0x8F) := by
                    (repeat' split at hlo) <;> (repeat' split at hhi) <;> omega
                  refine ⟨.inr (by omega), ?_⟩
                  unfold enc
                  rw [if_neg (by omega), if_neg (by omega), if_neg (by omega)]
                  refine ⟨?_, rfl⟩
                  simp only [List.take_succ_cons, List.take_zero, List.cons.injEq, and_true, eq_comm (b := UInt8.ofNat _)]
                  rw [ofNat_eq (by omega), ofNat_eq (by omega), ofNat_eq (by omega), ofNat_eq (by omega)]
                  omega
              · cases h
            · cases h

theorem runeAt_enc {n : Nat} (h : Scalar n) (r : Bytes) : runeAt (enc n ++ r) = some (n, (enc n).length) := by
  unfold Scalar at h
  unfold enc
  split
  · simp only [List.cons_append, List.nil_append, runeAt]
    rw [show (UInt8.ofNat n).toNat = n by simp; omega, if_pos (by assumption)]
    rfl
  · split
    · simp only [List.cons_append, List.nil_append, runeAt]
      rw [show (UInt8.ofNat (0xC0 + n / 64)).toNat = 0xC0 + n / 64 by simp; omega, show (UInt8.ofNat (0x80 + n % 64)).toNat = 0x80 + n % 64 by simp; omega,
        if_neg (by omega), if_neg (by omega), if_pos (by omega), if_neg (by omega)]
      simp only [Option.some.injEq, Prod.mk.injEq, List.length_cons, List.length_nil, and_true]
      omega
    · split
      · simp only [List.cons_append, List.nil_append, runeAt]
        rw [show (UInt8.ofNat (0xE0 + n / 4096)).toNat = 0xE0 + n / 4096 by simp; omega, show (UInt8.ofNat (0x80 + n / 64 % 64)).toNat = 0x80 + n / 64 % 64 by simp; omega,
          show (UInt8.ofNat (0x80 + n % 64)).toNat = 0x80 + n % 64 by simp; omega,
          if_neg (by omega), if_neg (by omega), if_neg (by omega), if_pos (by omega), if_neg (by unfold acceptLo acceptHi; (repeat' split) <;> omega)]
        simp only [Option.some.injEq, Prod.mk.injEq, List.length_cons, List.length_nil, and_true]
        omega
      · simp only [List.cons_append, List.nil_append, runeAt]
        rw [show (UInt8.ofNat (0xF0 + n / 262144)).toNat = 0xF0 + n / 262144 by simp; omega, show (UInt8.ofNat (0x80 + n / 4096 % 64)).toNat = 0x80 + n / 4096 % 64 by simp; omega,
          show (UInt8.ofNat (0x80 + n / 64 % 64)).toNat = 0x80 + n / 64 % 64 by simp; omega,
          show (UInt8.ofNat (0x80 + n % 64)).toNat = 0x80 + n % 64 by simp; omega,
          if_neg (by omega), if_neg (by omega), if_neg (by omega), if_neg (by omega), if_pos (by omega), if_neg (by unfold acceptLo acceptHi; (repeat' split) <;> omega)]
        simp only [Option.some.injEq, Prod.mk.injEq, List.length_cons, List.length_nil, and_true]
        omega

theorem enc_ne (n : Nat) : enc n ≠ [] := by
  unfold enc
  repeat' split
  all_goals simp

theorem runeAt_some_iff {s : Bytes} {n : Nat} : (∃ k, runeAt s = some (n, k)) ↔ Scalar n ∧ enc n <+: s := by
  constructor
  · rintro ⟨k, h⟩
    obtain ⟨h1, h2, _⟩ := runeAt_sound h
    exact ⟨h1, h2 ▸ List.take_prefix _ _⟩
  · rintro ⟨h, r, rfl⟩
    exact ⟨_, runeAt_enc h r⟩

end Egts
