import Verif.Model.Alloc
import Verif.Proofs.Fuel

/-! # Bounds on the buffers for record data -/

namespace Egts

theorem mu_append (a b : Bytes) : mu (a ++ b) = if mu b = 0 then mu a else a.length + mu b := by
  induction a with
  | nil => simp only [List.nil_append, mu, List.length_nil]; split <;> omega
  | cons x a ih =>
    simp only [List.cons_append, mu, ih, List.length_cons]
    by_cases h : mu b = 0
    · simp [h]
    · simp only [h, if_false]
      rw [if_neg (by omega)]; omega

theorem mu_split (k : Nat) (x : Bytes) : mu x = if mu (x.drop k) = 0 then mu (x.take k) else k + mu (x.drop k) := by
  conv_lhs => rw [← List.take_append_drop k x]
  rw [mu_append]
  split
  · rfl
  · rename_i h
    have : k ≤ x.length := by
      by_contra hk
      rw [List.drop_eq_nil_of_le (by omega)] at h
      exact h rfl
    rw [List.length_take, Nat.min_eq_left this]

theorem mu_take_le (k : Nat) (x : Bytes) : mu (x.take k) ≤ k := by
  have := mu_le (x.take k)
  rw [List.length_take] at this; omega

/-- What one record sets aside, and what is left of the input after it. -/
theorem sdrAlloc_le {rdsA : Bytes → Nat} (h : ∀ x, rdsA x ≤ 65535 * (mu x / 7)) (r : Bytes) :
    sdrAlloc rdsA r ≤ 65535 * ((mu r + 6) / 7) ∧
    ∀ rdsDec s r', sdrStep rdsDec r = .ok (s, r') → sdrAlloc rdsA r + 65535 * ((mu r' + 6) / 7) ≤ 65535 * ((mu r + 6) / 7) := by
  unfold sdrAlloc sdrStep
  cases hh : sdrHead r with
  | error e => exact ⟨Nat.zero_le _, fun _ _ _ h => by simp only [error_bind] at h; cases h⟩
  | ok p =>
    obtain ⟨s1, r1⟩ := p
    obtain ⟨a, b, c, d, fl, t, e1, e2, _, e3, k, e4⟩ := sdrHead_ok hh
    simp only [ok_bind]
    have hlen : s1.recordLength.toNat < 65536 := s1.recordLength.toNat_lt
    have hz : mu r = 0 → s1.recordLength.toNat = 0 := by
      intro h0
      rw [e1] at h0
      obtain ⟨ha, h0⟩ := mu_cons_zero h0
      obtain ⟨hb, h0⟩ := mu_cons_zero h0
      rw [e2, ha, hb]; rfl
    by_cases hr : r1 = []
    · simp only [hr, if_true, ne_eq, not_true_eq_false, if_false, pure_eq_ok, Except.ok.injEq, Prod.mk.injEq]
      refine ⟨Nat.zero_le _, ?_⟩
      rintro _ _ _ ⟨_, rfl⟩
      have : mu ([] : Bytes) = 0 := rfl
      omega
    · simp only [hr, if_false, ne_eq, not_false_eq_true, if_true]
      have hk : 7 ≤ k := by
        have : r1.length ≠ 0 := fun h => hr (List.length_eq_zero_iff.mp h)
        rw [e4, List.length_drop] at e3 this
        omega
      have m1 : mu r = if mu r1 = 0 then mu (r.take k) else k + mu r1 := by rw [e4]; exact mu_split k r
      have m2 := mu_split s1.recordLength.toNat r1
      have m3 := mu_take_le s1.recordLength.toNat r1
      cases hb : readerRead (zeros s1.recordLength.toNat) r1 with
      | error e => unfold readerRead at hb; simp [hr] at hb
      | ok p =>
        obtain ⟨x, r2⟩ := p
        obtain ⟨_, h1, h2⟩ := readerRead_ok hb
        simp only [zeros_length] at h1 h2
        have m4 : mu x = mu (r1.take s1.recordLength.toNat) := by rw [h1, drop_zeros, mu_append_zeros]
        have hx := h x
        have key : s1.recordLength.toNat + rdsA x + 65535 * ((mu r2 + 6) / 7) ≤ 65535 * ((mu r + 6) / 7) := by
          rw [h2]
          generalize hm : mu (r1.drop s1.recordLength.toNat) = m at *
          generalize hn : mu (r1.take s1.recordLength.toNat) = n at *
          generalize s1.recordLength.toNat = l at *
          split at m1 <;> split at m2 <;> omega
        refine ⟨by simp only; omega, ?_⟩
        intro rdsDec s r' hs
        simp only [ok_bind, bind_eq_ok, pure_eq_ok, Except.ok.injEq, Prod.mk.injEq] at hs
        obtain ⟨_, _, _, rfl⟩ := hs
        exact key

theorem sdsAlloc_le {seq : Nat → Nat → Nat} (hq : ∀ a b, seq a b ≤ a + b) (rdsDec) {rdsA : Bytes → Nat}
    (h : ∀ x, rdsA x ≤ 65535 * (mu x / 7)) : ∀ n r, sdsAlloc seq rdsDec rdsA n r ≤ 65535 * ((mu r + 6) / 7)
  | 0, _ => Nat.zero_le _
  | n + 1, r => by
    unfold sdsAlloc
    obtain ⟨h1, h2⟩ := sdrAlloc_le h r
    split
    · exact Nat.zero_le _
    · cases hs : sdrStep rdsDec r with
      | error e => exact h1
      | ok p =>
        obtain ⟨s, r'⟩ := p
        have := h2 rdsDec s r' hs
        have := sdsAlloc_le hq rdsDec h n r'
        have := hq (sdrAlloc rdsA r) (sdsAlloc seq rdsDec rdsA n r')
        simp only
        omega

theorem subAlloc_le {respA : Bytes → Nat} (h : ∀ x, respA x ≤ 65535 * ((mu x + 3) / 7)) (r : Bytes) :
    subAlloc respA r ≤ 65535 * (mu r / 7) ∧
    ∀ env respDec s r', rdStep env respDec r = .ok (s, r') → subAlloc respA r + 65535 * (mu r' / 7) ≤ 65535 * (mu r / 7) := by
  unfold subAlloc rdStep
  cases h1 : readByte r with
  | error e => exact ⟨Nat.zero_le _, fun _ _ _ _ h => by simp only [error_bind] at h; cases h⟩
  | ok p =>
    obtain ⟨t, r1⟩ := p
    simp only [ok_bind]
    have e1 := readByte_ok h1
    cases h2 : bufferRead (zeros 2) r1 with
    | error e => exact ⟨Nat.zero_le _, fun _ _ _ _ h => by simp only [error_bind] at h; cases h⟩
    | ok p =>
      obtain ⟨tmp, r2⟩ := p
      obtain ⟨_, _, e2⟩ := bufferRead_ok h2
      simp only [ok_bind]
      rw [zeros_length] at e2
      have e3 : r2 = r.drop 3 := by rw [e1, e2]; rfl
      have m1 := mu_split 3 r
      rw [← e3] at m1
      have m2 := mu_split (le16 tmp).toNat r2
      have m3 := mu_take_le (le16 tmp).toNat r2
      have hx := h (r2.take (le16 tmp).toNat)
      have key : (if t = 0 then respA (r2.take (le16 tmp).toNat) else 0) + 65535 * (mu (r2.drop (le16 tmp).toNat) / 7) ≤ 65535 * (mu r / 7) := by
        generalize mu (r2.drop (le16 tmp).toNat) = m at *
        generalize respA (r2.take (le16 tmp).toNat) = q at *
        generalize mu (r2.take (le16 tmp).toNat) = n at *
        generalize (le16 tmp).toNat = l at *
        split <;> split at m1 <;> split at m2 <;> omega
      refine ⟨by omega, ?_⟩
      intro env respDec s r' hs
      simp only [bind_eq_ok, pure_eq_ok, Except.ok.injEq, Prod.mk.injEq] at hs
      obtain ⟨_, _, _, rfl⟩ := hs
      exact key

theorem rdsAlloc_le {seq : Nat → Nat → Nat} (hq : ∀ a b, seq a b ≤ a + b) (env respDec) {respA : Bytes → Nat}
    (h : ∀ x, respA x ≤ 65535 * ((mu x + 3) / 7)) : ∀ n r, rdsAlloc seq env respDec respA n r ≤ 65535 * (mu r / 7)
  | 0, _ => Nat.zero_le _
  | n + 1, r => by
    unfold rdsAlloc
    obtain ⟨h1, h2⟩ := subAlloc_le h r
    split
    · exact Nat.zero_le _
    · cases hs : rdStep env respDec r with
      | error e => exact h1
      | ok p =>
        obtain ⟨s, r'⟩ := p
        have := h2 env respDec s r' hs
        have := rdsAlloc_le hq env respDec h n r'
        have := hq (subAlloc respA r) (rdsAlloc seq env respDec respA n r')
        simp only
        omega

theorem respAlloc_le {seq : Nat → Nat → Nat} (hq : ∀ a b, seq a b ≤ a + b) (env : Env) :
    ∀ d b, respAlloc seq env d b ≤ 65535 * ((mu b + 3) / 7)
  | 0, _ => Nat.zero_le _
  | d + 1, b => by
    unfold respAlloc
    cases hh : SrResponse.decodeHead b with
    | error e => exact Nat.zero_le _
    | ok p =>
      obtain ⟨s, r⟩ := p
      simp only
      have hr : mu r ≤ mu b - 3 := by
        simp only [SrResponse.decodeHead, bind_eq_ok, Prod.exists, pure_eq_ok, Except.ok.injEq, Prod.mk.injEq] at hh
        obtain ⟨tmp, r1, h1, st, r2, h2, _, rfl⟩ := hh
        obtain ⟨_, _, e⟩ := bufferRead_ok h1
        have := readByte_ok h2
        rw [this, zeros_length] at e
        have m := mu_drop 2 b
        rw [← e] at m
        have := mu_tail st r2
        omega
      have := sdsAlloc_le hq (rdsDecodeD env d) (rdsA := fun b => rdsAlloc seq env (srRespDecode env d) (respAlloc seq env d) b.length b)
        (fun x => rdsAlloc_le hq env _ (respAlloc_le hq env d) _ _) r.length r
      omega

/-- All the buffers together: at most one of full size for every seven bytes. -/
theorem sds_alloc_le {seq : Nat → Nat → Nat} (hq : ∀ a b, seq a b ≤ a + b) (env : Env) (b : Bytes) :
    ServiceDataSet.alloc seq env b ≤ 65535 * ((b.length + 6) / 7) := by
  have := sdsAlloc_le hq (rdsDecodeD env (depthFor b.length))
    (rdsA := fun x => rdsAlloc seq env (srRespDecode env (depthFor b.length)) (respAlloc seq env (depthFor b.length)) x.length x)
    (fun x => rdsAlloc_le hq env _ (respAlloc_le hq env _) _ _) b.length b
  have := mu_le b
  unfold ServiceDataSet.alloc
  omega

end Egts
