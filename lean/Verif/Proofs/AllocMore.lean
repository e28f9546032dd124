import Verif.Spec.Alloc
import Verif.Spec.Layout
import Verif.Proofs.Alloc
import Verif.Proofs.Depth

/-! # What is in use at a time, and what nested responses need -/

namespace Egts

open Layout

/-! ## in use at a time -/

theorem sdrAlloc_le13 {rdsA : Bytes → Nat} (h : ∀ x, rdsA x ≤ 65535 * (if mu x ≤ 6 then 0 else (mu x + 6) / 13)) (r : Bytes) :
    sdrAlloc rdsA r ≤ 65535 * ((mu r + 12) / 13) := by
  unfold sdrAlloc
  cases hh : sdrHead r with
  | error e => exact Nat.zero_le _
  | ok p =>
    obtain ⟨s1, r1⟩ := p
    obtain ⟨a, b, c, d, fl, t, e1, e2, _, e3, k, e4⟩ := sdrHead_ok hh
    simp only
    have hlen : s1.recordLength.toNat < 65536 := s1.recordLength.toNat_lt
    have hz : mu r = 0 → s1.recordLength.toNat = 0 := by
      intro h0
      rw [e1] at h0
      obtain ⟨ha, h0⟩ := mu_cons_zero h0
      obtain ⟨hb, h0⟩ := mu_cons_zero h0
      rw [e2, ha, hb]; rfl
    by_cases hr : r1 = []
    · simp only [hr, if_true]; exact Nat.zero_le _
    · simp only [hr, if_false]
      have hk : 7 ≤ k := by
        have : r1.length ≠ 0 := fun h => hr (List.length_eq_zero_iff.mp h)
        rw [e4, List.length_drop] at e3 this
        omega
      have m1 : mu r = if mu r1 = 0 then mu (r.take k) else k + mu r1 := by rw [e4]; exact mu_split k r
      have m3 := mu_take s1.recordLength.toNat r1
      cases hb : readerRead (zeros s1.recordLength.toNat) r1 with
      | error e => unfold readerRead at hb; simp [hr] at hb
      | ok p =>
        obtain ⟨x, r2⟩ := p
        obtain ⟨_, h1, h2⟩ := readerRead_ok hb
        simp only [zeros_length] at h1 h2
        have m4 : mu x = mu (r1.take s1.recordLength.toNat) := by rw [h1, drop_zeros, mu_append_zeros]
        have hx := h x
        simp only
        split at hx <;> split at m1 <;> omega

theorem sdrStep_drop {f r s r'} (hs : sdrStep f r = .ok (s, r')) : ∃ k, r' = r.drop k := by
  simp only [sdrStep, bind_eq_ok, Prod.exists] at hs
  obtain ⟨s1, r1, h1, h2⟩ := hs
  obtain ⟨_, _, _, _, _, _, _, _, _, _, k, hk⟩ := sdrHead_ok h1
  split at h2
  · simp only [bind_eq_ok, Prod.exists, pure_eq_ok, Except.ok.injEq, Prod.mk.injEq] at h2
    obtain ⟨_, r2, h3, _, _, _, rfl⟩ := h2
    obtain ⟨_, _, e⟩ := readerRead_ok h3
    rw [hk, List.drop_drop] at e
    exact ⟨_, e⟩
  · simp only [pure_eq_ok, Except.ok.injEq, Prod.mk.injEq] at h2
    rw [← h2.2]; exact ⟨k, hk⟩

theorem sdsAlloc_le13 (rdsDec) {rdsA : Bytes → Nat} (h : ∀ x, rdsA x ≤ 65535 * (if mu x ≤ 6 then 0 else (mu x + 6) / 13)) :
    ∀ n r, sdsAlloc max rdsDec rdsA n r ≤ 65535 * ((mu r + 12) / 13)
  | 0, _ => Nat.zero_le _
  | n + 1, r => by
    unfold sdsAlloc
    have h1 := sdrAlloc_le13 h r
    split
    · exact Nat.zero_le _
    · cases hs : sdrStep rdsDec r with
      | error e => exact h1
      | ok p =>
        obtain ⟨s, r'⟩ := p
        obtain ⟨k, rfl⟩ := sdrStep_drop hs
        have := mu_drop k r
        have := sdsAlloc_le13 rdsDec h n (r.drop k)
        simp only
        omega

theorem subAlloc_le13 {respA : Bytes → Nat} (h : ∀ x, respA x ≤ 65535 * (if mu x ≤ 3 then 0 else (mu x + 9) / 13)) (r : Bytes) :
    subAlloc respA r ≤ 65535 * (if mu r ≤ 6 then 0 else (mu r + 6) / 13) := by
  unfold subAlloc
  cases h1 : readByte r with
  | error e => exact Nat.zero_le _
  | ok p =>
    obtain ⟨t, r1⟩ := p
    have e1 := readByte_ok h1
    simp only
    cases h2 : bufferRead (zeros 2) r1 with
    | error e => exact Nat.zero_le _
    | ok p =>
      obtain ⟨tmp, r2⟩ := p
      obtain ⟨_, _, e2⟩ := bufferRead_ok h2
      rw [zeros_length] at e2
      have e3 : r2 = r.drop 3 := by rw [e1, e2]; rfl
      have m1 := mu_drop 3 r
      rw [← e3] at m1
      have m3 := mu_take (le16 tmp).toNat r2
      have hx := h (r2.take (le16 tmp).toNat)
      simp only
      split at hx <;> split <;> split <;> omega

theorem rdStep_drop {env f r s r'} (hs : rdStep env f r = .ok (s, r')) : ∃ k, r' = r.drop k := by
  obtain ⟨t, r1, tmp, r2, d, h1, h2, _, _, h5⟩ := rdStep_ok hs
  obtain ⟨_, _, h6⟩ := bufferRead_ok h2
  subst h1 h5 h6
  exact ⟨1 + (2 + (le16 tmp).toNat), by rw [List.drop_drop, zeros_length, Nat.add_comm 1, List.drop_succ_cons]⟩

theorem rdsAlloc_le13 (env respDec) {respA : Bytes → Nat} (h : ∀ x, respA x ≤ 65535 * (if mu x ≤ 3 then 0 else (mu x + 9) / 13)) :
    ∀ n r, rdsAlloc max env respDec respA n r ≤ 65535 * (if mu r ≤ 6 then 0 else (mu r + 6) / 13)
  | 0, _ => Nat.zero_le _
  | n + 1, r => by
    unfold rdsAlloc
    have h1 := subAlloc_le13 h r
    split
    · exact Nat.zero_le _
    · cases hs : rdStep env respDec r with
      | error e => exact h1
      | ok p =>
        obtain ⟨s, r'⟩ := p
        obtain ⟨k, rfl⟩ := rdStep_drop hs
        have := mu_drop k r
        have := rdsAlloc_le13 env respDec h n (r.drop k)
        simp only
        split at this <;> split at h1 <;> split <;> omega

theorem respAlloc_le13 (env : Env) : ∀ d b, respAlloc max env d b ≤ 65535 * (if mu b ≤ 3 then 0 else (mu b + 9) / 13)
  | 0, _ => Nat.zero_le _
  | d + 1, b => by
    unfold respAlloc
    cases hh : SrResponse.decodeHead b with
    | error e => exact Nat.zero_le _
    | ok p =>
      obtain ⟨s, r⟩ := p
      simp only
      have hr : mu r ≤ mu b - 3 := by
        simp only [SrResponse.decodeHead, bind_eq_ok, Prod.exists, pure_eq_ok, Except.ok.injEq, Prod.mk.injEq] at hh
        obtain ⟨tmp, r1, h1, st, r2, h2, _, rfl⟩ := hh
        obtain ⟨_, _, e⟩ := bufferRead_ok h1
        have := readByte_ok h2
        rw [this, zeros_length] at e
        have m := mu_drop 2 b
        rw [← e] at m
        have := mu_tail st r2
        omega
      have := sdsAlloc_le13 (rdsDecodeD env d) (rdsA := fun b => rdsAlloc max env (srRespDecode env d) (respAlloc max env d) b.length b)
        (fun x => rdsAlloc_le13 env _ (respAlloc_le13 env d) _ _) r.length r
      split <;> omega

theorem inUse_le (env : Env) (b : Bytes) : inUse env b ≤ 65535 * ((b.length + 12) / 13) := by
  have := sdsAlloc_le13 (rdsDecodeD env (depthFor b.length))
    (rdsA := fun x => rdsAlloc max env (srRespDecode env (depthFor b.length)) (respAlloc max env (depthFor b.length)) x.length x)
    (fun x => rdsAlloc_le13 env _ (respAlloc_le13 env _) _ _) b.length b
  have := mu_le b
  unfold inUse ServiceDataSet.alloc
  omega

/-! ## without responses -/

theorem rdsLoop_types {env f} : ∀ n acc r out, rdsLoop env f n acc r = .ok out → ∀ rd ∈ acc, rd ∈ out
  | 0, acc, r, out, h, rd, hrd => by simp only [rdsLoop, Except.ok.injEq] at h; exact h ▸ hrd
  | n + 1, acc, r, out, h, rd, hrd => by
    unfold rdsLoop at h
    split at h
    · cases h; exact hrd
    · obtain ⟨⟨x, r'⟩, _, h⟩ := bind_eq_ok.mp h
      exact rdsLoop_types n _ _ _ h rd (List.mem_append_left _ hrd)

theorem rdsAlloc_none {env f respA} : ∀ n acc r out, rdsLoop env f n acc r = .ok out → (∀ rd ∈ out, rd.subrecordType ≠ 0) →
    rdsAlloc (· + ·) env f respA n r = 0
  | 0, _, _, _, _, _ => rfl
  | n + 1, acc, r, out, h, hn => by
    unfold rdsLoop at h
    unfold rdsAlloc
    split at h
    · rename_i hr; rw [if_pos hr]
    · rename_i hr
      obtain ⟨⟨x, r'⟩, hs, h⟩ := bind_eq_ok.mp h
      rw [if_neg hr, hs]
      simp only at h ⊢
      have ih := rdsAlloc_none (respA := respA) n _ _ _ h hn
      obtain ⟨t, r1, tmp, r2, d, h1, h2, h3, h4, h5⟩ := rdStep_ok hs
      have ht : t ≠ 0 := by
        rintro rfl
        have hd : ∃ y, d = some y := by
          simp only [subDecode] at h3
          obtain ⟨y, _, h3⟩ := bind_eq_ok.mp h3
          cases h3; exact ⟨_, rfl⟩
        obtain ⟨y, rfl⟩ := hd
        subst h4
        exact hn ⟨0, le16 tmp, some y⟩ (rdsLoop_types n _ _ _ h _ (List.mem_append_right _ (by simp))) rfl
      have : subAlloc respA r = 0 := by
        unfold subAlloc
        rw [h1, readByte_cons]
        simp only
        rw [h2]
        simp only [ht, if_false]
      omega

theorem sdsLoop_keeps {f} : ∀ n acc r out, sdsLoop f n acc r = .ok out → ∀ rd ∈ acc, rd ∈ out
  | 0, acc, r, out, h, rd, hrd => by simp only [sdsLoop, Except.ok.injEq] at h; exact h ▸ hrd
  | n + 1, acc, r, out, h, rd, hrd => by
    unfold sdsLoop at h
    split at h
    · cases h; exact hrd
    · obtain ⟨⟨x, r'⟩, _, h⟩ := bind_eq_ok.mp h
      exact sdsLoop_keeps n _ _ _ h rd (List.mem_append_left _ hrd)

theorem sdsAlloc_linear {f rdsA} (hA : ∀ x rds, f x = .ok rds → (∀ rd ∈ rds, rd.subrecordType ≠ 0) → rdsA x = 0) :
    ∀ n acc r out, sdsLoop f n acc r = .ok out → NoResponses out →
      sdsAlloc (· + ·) f rdsA n r ≤ if r = [] then 0 else r.length + 65528
  | 0, _, _, _, _, _ => Nat.zero_le _
  | n + 1, acc, r, out, h, hn => by
    unfold sdsLoop at h
    unfold sdsAlloc
    split at h
    · rename_i hr; rw [if_pos hr]; exact Nat.zero_le _
    · rename_i hr
      obtain ⟨⟨x, r'⟩, hs, h⟩ := bind_eq_ok.mp h
      rw [if_neg hr, if_neg hr, hs]
      simp only at h ⊢
      have ih := sdsAlloc_linear hA n _ _ _ h hn
      have hx : ∀ rd ∈ x.recordDataSet, rd.subrecordType ≠ 0 := hn x (sdsLoop_keeps n _ _ _ h x (List.mem_append_right _ (by simp)))
      simp only [sdrStep, bind_eq_ok, Prod.exists] at hs
      obtain ⟨s1, r1, h1, h2⟩ := hs
      obtain ⟨_, _, _, _, _, _, _, _, _, hl, _⟩ := sdrHead_ok h1
      have hlen : s1.recordLength.toNat < 65536 := s1.recordLength.toNat_lt
      unfold sdrAlloc
      rw [h1]
      simp only
      split at h2
      · rename_i hr1
        simp only [bind_eq_ok, Prod.exists, pure_eq_ok, Except.ok.injEq, Prod.mk.injEq] at h2
        obtain ⟨b, r2, h3, rds, h4, rfl, rfl⟩ := h2
        rw [if_neg hr1, h3]
        simp only
        have := hA b rds h4 hx
        obtain ⟨_, _, e⟩ := readerRead_ok h3
        rw [zeros_length] at e
        have hr2 : r2.length = r1.length - s1.recordLength.toNat := by rw [e, List.length_drop]
        split at ih
        · omega
        · rename_i hne
          have : r2.length ≠ 0 := fun h => hne (List.length_eq_zero_iff.mp h)
          omega
      · rename_i hr1
        simp only [pure_eq_ok, Except.ok.injEq, Prod.mk.injEq] at h2
        obtain ⟨_, rfl⟩ := h2
        rw [if_pos (not_not.mp hr1)] at ih ⊢
        omega

/-! ## nested responses -/

theorem nestedRecords_length (d : Nat) : (nestedRecords d).length = 13 * d := by
  induction d with
  | zero => rfl
  | succ d ih => simp only [nestedRecords, List.length_append, List.length_cons, List.length_nil, ih]; omega

theorem zeros_add (m n : Nat) : zeros m ++ zeros n = zeros (m + n) := by simp [zeros]

theorem sdrHead_nested (r : Bytes) : ∃ s, sdrHead ([253, 255, 0, 0, 0, 2, 2] ++ r) = .ok (s, r) ∧ s.recordLength = 65533 :=
  ⟨_, by with_unfolding_all rfl, by
    show le16 [253, 255] = 65533
    decide⟩

theorem respHead_nested (r : Bytes) : ∃ s, SrResponse.decodeHead ([1, 0, 0] ++ r) = .ok (s, r) :=
  ⟨_, by with_unfolding_all rfl⟩

theorem le_sdsAlloc (f rdsA) {n r} (hn : n ≠ 0) (hr : r ≠ []) : sdrAlloc rdsA r ≤ sdsAlloc max f rdsA n r := by
  obtain ⟨n, rfl⟩ := Nat.exists_eq_succ_of_ne_zero hn
  unfold sdsAlloc
  rw [if_neg hr]
  split
  · exact Nat.le_refl _
  · exact Nat.le_max_left _ _

theorem le_rdsAlloc (env f respA) {n r} (hn : n ≠ 0) (hr : r ≠ []) : subAlloc respA r ≤ rdsAlloc max env f respA n r := by
  obtain ⟨n, rfl⟩ := Nat.exists_eq_succ_of_ne_zero hn
  unfold rdsAlloc
  rw [if_neg hr]
  split
  · exact Nat.le_refl _
  · exact Nat.le_max_left _ _

theorem nested_padded {d m : Nat} (h : 13 * d + m ≤ 65527) :
    readerRead (zeros 65533) ([0, 255, 255] ++ ([1, 0, 0] ++ (nestedRecords d ++ zeros m)))
      = .ok ([0, 255, 255] ++ ([1, 0, 0] ++ (nestedRecords d ++ zeros (65527 - 13 * d))), []) := by
  have hl : ([0, 255, 255] ++ ([1, 0, 0] ++ (nestedRecords d ++ zeros m)) : Bytes).length = 6 + 13 * d + m := by
    simp only [List.length_append, List.length_cons, List.length_nil, nestedRecords_length, zeros_length]; omega
  unfold readerRead
  rw [if_neg (by simp), zeros_length, List.take_of_length_le (by omega), drop_zeros, List.drop_eq_nil_of_le (i := 65533) (by omega), hl]
  simp only [List.append_assoc, zeros_add]
  rw [show m + (65533 - (6 + 13 * d + m)) = 65527 - 13 * d by omega]

theorem subAlloc_nested (respA : Bytes → Nat) (x : Bytes) (h : ([1, 0, 0] ++ x).length ≤ 65535) :
    subAlloc respA ([0, 255, 255] ++ ([1, 0, 0] ++ x)) = respA ([1, 0, 0] ++ x) := by
  have e1 : readByte ([0, 255, 255] ++ ([1, 0, 0] ++ x)) = .ok (0, [255, 255] ++ ([1, 0, 0] ++ x)) := rfl
  have e2 : bufferRead (zeros 2) ([255, 255] ++ ([1, 0, 0] ++ x)) = .ok ([255, 255], [1, 0, 0] ++ x) := by with_unfolding_all rfl
  unfold subAlloc
  rw [e1]
  simp only
  rw [e2]
  simp only [if_true]
  rw [List.take_of_length_le (by rw [show (le16 [255, 255]).toNat = 65535 by decide]; exact h)]

/-- What `d` nested records need, at any nesting bound above `d`. -/
theorem nested_alloc (env : Env) : ∀ d m k, d ≤ k → 13 * d + m ≤ 65540 →
    65533 * d ≤ sdsAlloc max (rdsDecodeD env k) (fun b => rdsAlloc max env (srRespDecode env k) (respAlloc max env k) b.length b)
      (nestedRecords d ++ zeros m).length (nestedRecords d ++ zeros m)
  | 0, _, _, _, _ => Nat.zero_le _
  | d + 1, m, k, hk, h => by
    have hne : nestedRecords (d + 1) ++ zeros m ≠ [] := by simp [nestedRecords]
    refine Nat.le_trans ?_ (le_sdsAlloc _ _ (fun h => hne (List.length_eq_zero_iff.mp h)) hne)
    obtain ⟨s, hs, hsl⟩ := sdrHead_nested ([0, 255, 255] ++ ([1, 0, 0] ++ (nestedRecords d ++ zeros m)))
    have e : nestedRecords (d + 1) ++ zeros m = [253, 255, 0, 0, 0, 2, 2] ++ ([0, 255, 255] ++ ([1, 0, 0] ++ (nestedRecords d ++ zeros m))) := by
      simp only [nestedRecords, List.append_assoc]
    unfold sdrAlloc
    rw [e, hs]
    simp only [hsl, show (65533 : UInt16).toNat = 65533 by decide]
    rw [if_neg (by simp), nested_padded (by omega)]
    simp only
    have hin : ([1, 0, 0] ++ (nestedRecords d ++ zeros (65527 - 13 * d)) : Bytes).length ≤ 65535 := by
      simp only [List.length_append, List.length_cons, List.length_nil, nestedRecords_length, zeros_length]; omega
    have h1 := le_rdsAlloc env (srRespDecode env k) (respAlloc max env k) (n := ([0, 255, 255] ++ ([1, 0, 0] ++ (nestedRecords d ++ zeros (65527 - 13 * d))) : Bytes).length)
      (r := [0, 255, 255] ++ ([1, 0, 0] ++ (nestedRecords d ++ zeros (65527 - 13 * d)))) (by simp) (by simp)
    rw [subAlloc_nested _ _ hin] at h1
    obtain ⟨k, rfl⟩ : ∃ j, k = j + 1 := ⟨k - 1, by omega⟩
    obtain ⟨s', hs'⟩ := respHead_nested (nestedRecords d ++ zeros (65527 - 13 * d))
    have h2 := nested_alloc env d (65527 - 13 * d) k (by omega) (by omega)
    have h3 : respAlloc max env (k + 1) ([1, 0, 0] ++ (nestedRecords d ++ zeros (65527 - 13 * d)))
        = sdsAlloc max (rdsDecodeD env k) (fun b => rdsAlloc max env (srRespDecode env k) (respAlloc max env k) b.length b)
          (nestedRecords d ++ zeros (65527 - 13 * d)).length (nestedRecords d ++ zeros (65527 - 13 * d)) := by
      rw [respAlloc, hs']
    omega

theorem nested_inUse (env : Env) (d : Nat) (h : 13 * d ≤ 65540) : 65533 * d ≤ inUse env (nestedRecords d) := by
  have := nested_alloc env d 0 (depthFor (nestedRecords d).length) (by unfold depthFor; rw [nestedRecords_length]; omega) (by omega)
  rw [show zeros 0 = [] from rfl, List.append_nil] at this
  exact this

end Egts
