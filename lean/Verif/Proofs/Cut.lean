import Verif.Spec.Cut
import Verif.Props.SubMisc
import Verif.Props.Wire
import Verif.Props.Layout

/-! # Lemmas about cut subrecords (C39) -/

namespace Egts
open Layout

theorem one_subrecord (env : Env) (t : UInt8) (x : Bytes) (ht : t.toNat ∈ knownTypes) (hx : x.length < 2 ^ 16) :
    (∃ rds, RecordDataSet.decode env [] (subrecordWire t x) = .ok rds) ↔ ∃ d, IsSubrecord t.toNat x.length x d := by
  have h0 : byteAt (subrecordWire t x) 0 = t.toNat := rfl
  have h1 : num (subrecordWire t x) 1 2 = x.length := by
    have h : num (subrecordWire t x) 1 2 = (UInt8.ofNat (x.length % 256)).toNat + 256 * ((UInt8.ofNat (x.length / 256 % 256)).toNat + 256 * 0) := rfl
    rw [h, UInt8.toNat_ofNat', UInt8.toNat_ofNat']
    omega
  have h2 : (subrecordWire t x).drop 3 = x := rfl
  have h3 : (subrecordWire t x).length = 3 + x.length := by simp [subrecordWire, leBytes]; omega
  have h4 : (subrecordWire t x).drop (3 + x.length) = [] := List.drop_eq_nil_of_le (by omega)
  constructor
  · rintro ⟨rds, h⟩
    obtain ⟨rs, h, -⟩ := (C81_subrecords env [] rds _).mp h
    cases hb : subrecordWire t x with
    | nil => rw [hb] at h3; simp at h3; omega
    | cons c cs =>
      rw [hb] at h
      cases h with
      | known _ d rds hl hd hr =>
        rw [← hb, h0, h1, h2, List.take_length] at hd
        exact ⟨d, hd⟩
      | unknown _ _ hl hk hr =>
        rw [← hb, h0] at hk
        exact absurd ht hk
  · rintro ⟨d, h⟩
    refine ⟨_, (C81_subrecords env [] _ _).mpr ⟨_, IsSubrecords.known (subrecordWire t x) d [] (by omega) ?_ ?_, rfl⟩⟩
    · rw [h0, h1, h2, List.take_length]; exact h
    · rw [h1, h4]; exact .nil

theorem subrecord_kind {t len : Nat} (ht : t ≠ 0) (x : Bytes) : (∃ d, IsSubrecord t len x d) ↔ ∃ d, IsKind t len x d :=
  ⟨fun ⟨d, h⟩ => by cases h with
    | plain _ _ _ _ h => exact ⟨d, h⟩
    | response => exact absurd rfl ht,
   fun ⟨d, h⟩ => ⟨d, .plain _ _ _ _ h⟩⟩

theorem bitAt_take {b : Bytes} {n i k : Nat} (h : i < n) : bitAt (b.take n) i k = bitAt b i k := by
  unfold bitAt; rw [byteAt_take h]

theorem count_take {b : Bytes} {n i : Nat} (h : i < n) : ∀ k, count (b.take n) i k = count b i k
  | 0 => rfl
  | k + 1 => by rw [count, count, count_take h k, bitAt_take h]

/-- 1 for a flag that is set. -/
def unit (f : Bytes) : Nat := if f = one then 1 else 0

theorem unit_le (f : Bytes) : unit f ≤ 1 := by unfold unit; split <;> omega

theorem bit_unit {b : Bytes} {i k : Nat} {f : Bytes} (h : bitStr (bitAt b i k) = f) : bitAt b i k = unit f := by
  have h2 := bitAt_lt b i k
  unfold unit
  rw [← h]
  by_cases h1 : bitAt b i k = 1
  · rw [if_pos ((bitStr_one _).mpr h1)]; exact h1
  · rw [if_neg (bitStr_ne_one h1)]; omega

theorem optBytes_length (f x : Bytes) : (optBytes f x).length = x.length * unit f := by
  unfold optBytes unit; split <;> simp

theorem lastPresent_cons (n : Nat) (f : Bytes) (w : Nat) (l : List (Bytes × Nat)) :
    lastPresent n ((f, w) :: l) = lastPresent (if unit f = 1 then w else n) l := by
  have e : (if f = go!"1" then w else n) = if unit f = 1 then w else n := by
    unfold unit
    by_cases h : f = one
    · rw [if_pos h, if_pos h, if_pos rfl]
    · rw [if_neg h, if_neg h, if_neg (by decide)]
  rw [lastPresent, e]

theorem lastPresent_nil (n : Nat) : lastPresent n [] = n := rfl

/-- Of fields of the same width in a row, all have begun if the last one has. -/
theorem begun_row (b : Bytes) (i s w m : Nat) : ∀ K, (∀ k < K, bitAt b i k = 1 → s + w * count b i k < m) ↔
    count b i K = 0 ∨ s + w * (count b i K - 1) < m
  | 0 => by simp [count]
  | K + 1 => by
    have hlt := bitAt_lt b i K
    have ih := begun_row b i s w m K
    have e : (∀ k < K + 1, bitAt b i k = 1 → s + w * count b i k < m) ↔
        (∀ k < K, bitAt b i k = 1 → s + w * count b i k < m) ∧ (bitAt b i K = 1 → s + w * count b i K < m) := by
      constructor
      · exact fun h => ⟨fun k hk => h k (by omega), h K (by omega)⟩
      · rintro ⟨h1, h2⟩ k hk
        by_cases hk' : k = K
        · subst hk'; exact h2
        · exact h1 k (by omega)
    rw [e, ih, count]
    by_cases h1 : bitAt b i K = 1
    · rw [h1, Nat.add_sub_cancel]
      constructor
      · exact fun h => .inr (h.2 rfl)
      · rintro (h | h)
        · omega
        · refine ⟨?_, fun _ => h⟩
          by_cases h0 : count b i K = 0
          · exact .inl h0
          · exact .inr (Nat.lt_of_le_of_lt (Nat.add_le_add_left (Nat.mul_le_mul_left w (Nat.sub_le _ _)) s) h)
    · rw [show bitAt b i K = 0 by omega, Nat.add_zero]
      simp

theorem begun_range (b : Bytes) (x : Bytes) (i s w : Nat) :
    Begun x ((List.range 8).map fun k => (bitAt b i k, s + w * count b i k)) ↔ count b i 8 = 0 ∨ s + w * (count b i 8 - 1) < x.length := by
  rw [← begun_row]
  simp only [Begun, List.mem_map, List.mem_range, forall_exists_index, and_imp, forall_apply_eq_imp_iff₂]

theorem begun_append (b : Bytes) (l m : List (Nat × Nat)) : Begun b (l ++ m) ↔ Begun b l ∧ Begun b m := by
  simp only [Begun, List.mem_append, or_imp, forall_and]

theorem enough_extPos (d : SrExtPosData) (hw : d.WF) (b : Bytes) (h : d.encode = .ok b) (n : Nat) (hn : n ≤ b.length) :
    (1 ≤ (b.take n).length ∧ Begun (b.take n) (SrExtPosData.fields (b.take n))) ↔ b.length < n + (SubData.extPos d).lastField := by
  obtain ⟨b', he, hd⟩ := extPos_rt d {} hw
  rw [h] at he
  cases he
  obtain ⟨-, hr⟩ := (extPos_read {} b _).mp hd
  have f1 : bitAt b 0 0 = unit d.vfe := bit_unit (congrArg SrExtPosData.vfe hr).symm
  have f2 : bitAt b 0 1 = unit d.hfe := bit_unit (congrArg SrExtPosData.hfe hr).symm
  have f3 : bitAt b 0 2 = unit d.pfe := bit_unit (congrArg SrExtPosData.pfe hr).symm
  have f4 : bitAt b 0 3 = unit d.sfe := bit_unit (congrArg SrExtPosData.sfe hr).symm
  have f5 : bitAt b 0 4 = unit d.nsfe := bit_unit (congrArg SrExtPosData.nsfe hr).symm
  have hl : b.length = 1 + 2 * unit d.vfe + 2 * unit d.hfe + 2 * unit d.pfe + 1 * unit d.sfe + 2 * unit d.nsfe := by
    simp only [SrExtPosData.encode, bind_eq_ok, pure_eq_ok, Except.ok.injEq] at h
    obtain ⟨f, _, rfl⟩ := h
    simp only [List.length_append, optBytes_length, put16, List.length_cons, List.length_nil]
  have u1 := unit_le d.vfe
  have u2 := unit_le d.hfe
  have u3 := unit_le d.pfe
  have u4 := unit_le d.sfe
  have u5 := unit_le d.nsfe
  have hlen : (b.take n).length = n := by rw [List.length_take, Nat.min_eq_left hn]
  rw [hlen]
  simp only [SubData.lastField, lastPresent_cons, lastPresent_nil]
  by_cases h0 : n = 0
  · subst h0
    constructor
    · rintro ⟨h, -⟩; omega
    · intro h; exfalso; revert h; rw [hl]; split_ifs <;> omega
  simp only [SrExtPosData.fields, begun_cons, begun_nil, and_true, bitAt_take (show 0 < n by omega), f1, f2, f3, f4, f5, hlen, hl]
  generalize unit d.vfe = v at *
  generalize unit d.hfe = v2 at *
  generalize unit d.pfe = v3 at *
  generalize unit d.sfe = v4 at *
  generalize unit d.nsfe = v5 at *
  split_ifs <;> omega

theorem enough_counters (d : SrCountersData) (hw : d.FlagsWF) (b : Bytes) (h : d.encode = .ok b) (n : Nat) (hn : n ≤ b.length) :
    (1 ≤ (b.take n).length ∧ Begun (b.take n) (SrCountersData.fields (b.take n))) ↔ b.length < n + (SubData.counters d).lastField := by
  obtain ⟨b', he, hd⟩ := counters_rt d {} hw
  rw [h] at he
  cases he
  obtain ⟨-, hr⟩ := (counters_read {} b _).mp hd
  have f1 : bitAt b 0 0 = unit d.cfe1 := bit_unit (congrArg SrCountersData.cfe1 hr).symm
  have f2 : bitAt b 0 1 = unit d.cfe2 := bit_unit (congrArg SrCountersData.cfe2 hr).symm
  have f3 : bitAt b 0 2 = unit d.cfe3 := bit_unit (congrArg SrCountersData.cfe3 hr).symm
  have f4 : bitAt b 0 3 = unit d.cfe4 := bit_unit (congrArg SrCountersData.cfe4 hr).symm
  have f5 : bitAt b 0 4 = unit d.cfe5 := bit_unit (congrArg SrCountersData.cfe5 hr).symm
  have f6 : bitAt b 0 5 = unit d.cfe6 := bit_unit (congrArg SrCountersData.cfe6 hr).symm
  have f7 : bitAt b 0 6 = unit d.cfe7 := bit_unit (congrArg SrCountersData.cfe7 hr).symm
  have f8 : bitAt b 0 7 = unit d.cfe8 := bit_unit (congrArg SrCountersData.cfe8 hr).symm
  have hl : b.length = 1 + 3 * unit d.cfe1 + 3 * unit d.cfe2 + 3 * unit d.cfe3 + 3 * unit d.cfe4 + 3 * unit d.cfe5 + 3 * unit d.cfe6 +
      3 * unit d.cfe7 + 3 * unit d.cfe8 := by
    simp only [SrCountersData.encode, bind_eq_ok, pure_eq_ok, Except.ok.injEq] at h
    obtain ⟨f, _, rfl⟩ := h
    simp only [List.length_append, optBytes_length, put24, put32, List.take_succ_cons, List.take_zero, List.length_cons, List.length_nil]
  have hc : count b 0 8 = unit d.cfe1 + unit d.cfe2 + unit d.cfe3 + unit d.cfe4 + unit d.cfe5 + unit d.cfe6 + unit d.cfe7 + unit d.cfe8 := by
    simp only [count, f1, f2, f3, f4, f5, f6, f7, f8]; omega
  have hla : (SubData.counters d).lastField = if count b 0 8 = 0 then 1 else 3 := by
    have u1 := unit_le d.cfe1
    have u2 := unit_le d.cfe2
    have u3 := unit_le d.cfe3
    have u4 := unit_le d.cfe4
    have u5 := unit_le d.cfe5
    have u6 := unit_le d.cfe6
    have u7 := unit_le d.cfe7
    have u8 := unit_le d.cfe8
    simp only [SubData.lastField, lastPresent_cons, lastPresent_nil, hc]
    split_ifs <;> omega
  rw [List.length_take, Nat.min_eq_left hn, hla]
  by_cases h0 : n = 0
  · subst h0
    constructor
    · rintro ⟨h, -⟩; omega
    · intro h; exfalso; revert h; rw [hl]; split_ifs <;> omega
  simp only [SrCountersData.fields, bitAt_take (show 0 < n by omega), count_take (show 0 < n by omega), begun_range, List.length_take, Nat.min_eq_left hn]
  have hl' : b.length = 1 + 3 * count b 0 8 := by rw [hl, hc]; omega
  split_ifs <;> omega

theorem enough_adSens (d : SrAdSensorsData) (hw : d.FlagsWF) (b : Bytes) (h : d.encode = .ok b) (n : Nat) (hn : n ≤ b.length) :
    (3 ≤ (b.take n).length ∧ Begun (b.take n) (SrAdSensorsData.fields (b.take n))) ↔ b.length < n + (SubData.adSens d).lastField := by
  obtain ⟨b', he, hd⟩ := adSens_back d {} hw
  rw [h] at he
  cases he
  obtain ⟨-, hr⟩ := (adSens_read {} b _).mp hd
  have f1 : bitAt b 0 0 = unit d.dioe1 := bit_unit (congrArg SrAdSensorsData.dioe1 hr).symm
  have f2 : bitAt b 0 1 = unit d.dioe2 := bit_unit (congrArg SrAdSensorsData.dioe2 hr).symm
  have f3 : bitAt b 0 2 = unit d.dioe3 := bit_unit (congrArg SrAdSensorsData.dioe3 hr).symm
  have f4 : bitAt b 0 3 = unit d.dioe4 := bit_unit (congrArg SrAdSensorsData.dioe4 hr).symm
  have f5 : bitAt b 0 4 = unit d.dioe5 := bit_unit (congrArg SrAdSensorsData.dioe5 hr).symm
  have f6 : bitAt b 0 5 = unit d.dioe6 := bit_unit (congrArg SrAdSensorsData.dioe6 hr).symm
  have f7 : bitAt b 0 6 = unit d.dioe7 := bit_unit (congrArg SrAdSensorsData.dioe7 hr).symm
  have f8 : bitAt b 0 7 = unit d.dioe8 := bit_unit (congrArg SrAdSensorsData.dioe8 hr).symm
  have g1 : bitAt b 2 0 = unit d.asfe8 := bit_unit (congrArg SrAdSensorsData.asfe1 hr).symm
  have g2 : bitAt b 2 1 = unit d.asfe7 := bit_unit (congrArg SrAdSensorsData.asfe2 hr).symm
  have g3 : bitAt b 2 2 = unit d.asfe6 := bit_unit (congrArg SrAdSensorsData.asfe3 hr).symm
  have g4 : bitAt b 2 3 = unit d.asfe5 := bit_unit (congrArg SrAdSensorsData.asfe4 hr).symm
  have g5 : bitAt b 2 4 = unit d.asfe4 := bit_unit (congrArg SrAdSensorsData.asfe5 hr).symm
  have g6 : bitAt b 2 5 = unit d.asfe3 := bit_unit (congrArg SrAdSensorsData.asfe6 hr).symm
  have g7 : bitAt b 2 6 = unit d.asfe2 := bit_unit (congrArg SrAdSensorsData.asfe7 hr).symm
  have g8 : bitAt b 2 7 = unit d.asfe1 := bit_unit (congrArg SrAdSensorsData.asfe8 hr).symm
  have hl : b.length = 3 + (unit d.dioe1 + unit d.dioe2 + unit d.dioe3 + unit d.dioe4 + unit d.dioe5 + unit d.dioe6 + unit d.dioe7 + unit d.dioe8) +
      3 * (unit d.asfe1 + unit d.asfe2 + unit d.asfe3 + unit d.asfe4 + unit d.asfe5 + unit d.asfe6 + unit d.asfe7 + unit d.asfe8) := by
    simp only [SrAdSensorsData.encode, bind_eq_ok, pure_eq_ok, Except.ok.injEq] at h
    obtain ⟨f, _, g, _, rfl⟩ := h
    simp only [List.length_append, optBytes_length, put24, put32, List.take_succ_cons, List.take_zero, List.length_cons, List.length_nil]
    omega
  have hc : count b 0 8 = unit d.dioe1 + unit d.dioe2 + unit d.dioe3 + unit d.dioe4 + unit d.dioe5 + unit d.dioe6 + unit d.dioe7 + unit d.dioe8 := by
    simp only [count, f1, f2, f3, f4, f5, f6, f7, f8]; omega
  have hc2 : count b 2 8 = unit d.asfe1 + unit d.asfe2 + unit d.asfe3 + unit d.asfe4 + unit d.asfe5 + unit d.asfe6 + unit d.asfe7 + unit d.asfe8 := by
    simp only [count, g1, g2, g3, g4, g5, g6, g7, g8]; omega
  have hla : (SubData.adSens d).lastField = if count b 2 8 = 0 then 1 else 3 := by
    have u1 := unit_le d.asfe1
    have u2 := unit_le d.asfe2
    have u3 := unit_le d.asfe3
    have u4 := unit_le d.asfe4
    have u5 := unit_le d.asfe5
    have u6 := unit_le d.asfe6
    have u7 := unit_le d.asfe7
    have u8 := unit_le d.asfe8
    simp only [SubData.lastField, lastPresent_cons, lastPresent_nil, hc2]
    split_ifs <;> omega
  have hl' : b.length = 3 + count b 0 8 + 3 * count b 2 8 := by rw [hl, hc, hc2]
  rw [List.length_take, Nat.min_eq_left hn, hla]
  by_cases h0 : n < 3
  · constructor
    · rintro ⟨h, -⟩; omega
    · intro h; exfalso; revert h; split_ifs <;> omega
  have e1 := fun x => begun_range b x 0 3 1
  simp only [Nat.one_mul] at e1
  simp only [SrAdSensorsData.fields, begun_append, bitAt_take (show 0 < n by omega), count_take (show 0 < n by omega),
    bitAt_take (show 2 < n by omega), count_take (show 2 < n by omega), begun_range, e1, List.length_take, Nat.min_eq_left hn]
  split_ifs <;> omega

theorem enough_term (d : SrTermIdentity) (hw : d.WF) (b : Bytes) (h : d.encode = .ok b) (n : Nat) (hn : n ≤ b.length) :
    (5 ≤ (b.take n).length ∧ Begun (b.take n) (SrTermIdentity.fields (b.take n))) ↔ b.length < n + (SubData.term d).lastField := by
  obtain ⟨b', he, hd⟩ := term_rt d {} hw
  rw [h] at he
  cases he
  obtain ⟨-, hr⟩ := (term_read {} b _).mp hd
  have f1 : bitAt b 4 0 = unit d.hdide := bit_unit (congrArg SrTermIdentity.hdide hr).symm
  have f2 : bitAt b 4 1 = unit d.imeie := bit_unit (congrArg SrTermIdentity.imeie hr).symm
  have f3 : bitAt b 4 2 = unit d.imsie := bit_unit (congrArg SrTermIdentity.imsie hr).symm
  have f4 : bitAt b 4 3 = unit d.lngce := bit_unit (congrArg SrTermIdentity.lngce hr).symm
  have f5 : bitAt b 4 5 = unit d.nide := bit_unit (congrArg SrTermIdentity.nide hr).symm
  have f6 : bitAt b 4 6 = unit d.bse := bit_unit (congrArg SrTermIdentity.bse hr).symm
  have f7 : bitAt b 4 7 = unit d.mne := bit_unit (congrArg SrTermIdentity.mne hr).symm
  obtain ⟨-, -, -, -, -, -, -, -, w1, w2, w3, w4, w5⟩ := hw
  have key : ∀ (f x : Bytes) (k : Nat), (f = go!"1" → x.length = k) → (optBytes f x).length = k * unit f := by
    intro f x k hk
    rw [optBytes_length, unit]
    by_cases hf : f = one
    · rw [if_pos hf, hk hf]
    · rw [if_neg hf, Nat.mul_zero, Nat.mul_zero]
  have hl : b.length = 5 + 2 * unit d.hdide + 15 * unit d.imeie + 16 * unit d.imsie + 3 * unit d.lngce + 3 * unit d.nide + 2 * unit d.bse +
      15 * unit d.mne := by
    simp only [SrTermIdentity.encode, Except.ok.injEq] at h
    subst h
    simp only [List.length_append, key _ _ _ w1, key _ _ _ w2, key _ _ _ w3, key _ _ _ w4, key _ _ _ w5, optBytes_length, put16, put32,
      List.length_cons, List.length_nil]
  have u1 := unit_le d.hdide
  have u2 := unit_le d.imeie
  have u3 := unit_le d.imsie
  have u4 := unit_le d.lngce
  have u5 := unit_le d.nide
  have u6 := unit_le d.bse
  have u7 := unit_le d.mne
  have hlen : (b.take n).length = n := by rw [List.length_take, Nat.min_eq_left hn]
  rw [hlen]
  simp only [SubData.lastField, lastPresent_cons, lastPresent_nil]
  by_cases h0 : n < 5
  · constructor
    · rintro ⟨h, -⟩; omega
    · intro h; exfalso; revert h; rw [hl]; split_ifs <;> omega
  simp only [SrTermIdentity.fields, SrTermIdentity.starts, List.zip_cons_cons, List.zip_nil_right, begun_cons, begun_nil, and_true,
    bitAt_take (show 4 < n by omega), f1, f2, f3, f4, f5, f6, f7, hlen, hl]
  generalize unit d.hdide = v at *
  generalize unit d.imeie = v2 at *
  generalize unit d.imsie = v3 at *
  generalize unit d.lngce = v4 at *
  generalize unit d.nide = v5 at *
  generalize unit d.bse = v6 at *
  generalize unit d.mne = v7 at *
  split_ifs <;> omega

theorem enough_pos (env : Env) (d : SrPosData) (hw : d.WF) (b : Bytes) (h : d.encode env = .ok b) (n : Nat) (hn : n ≤ b.length) :
    (21 ≤ (b.take n).length ∧ (PosWire.hasAltitude (b.take n) → 22 ≤ (b.take n).length)) ↔ b.length < n + (SubData.pos d).lastField := by
  obtain ⟨b', he, hd⟩ := pos_rt env d {} hw
  rw [h] at he
  cases he
  obtain ⟨-, hr⟩ := (C61_pos_decode_exact {} _ b).mp hd
  have f1 : bitAt b 12 7 = unit d.alte := bit_unit (congrArg SrPosData.alte hr).symm
  have hl : b.length = 21 + 3 * unit d.alte := by
    simp only [SrPosData.encode, bind_eq_ok, pure_eq_ok, Except.ok.injEq] at h
    obtain ⟨f, _, rfl⟩ := h
    simp only [List.length_append, optBytes_length, put16, put24, put32, List.take_succ_cons, List.take_zero, List.length_cons, List.length_nil]
  have u1 := unit_le d.alte
  have hlen : (b.take n).length = n := by rw [List.length_take, Nat.min_eq_left hn]
  rw [hlen]
  simp only [SubData.lastField, lastPresent_cons, lastPresent_nil]
  by_cases h0 : n < 21
  · constructor
    · rintro ⟨h, -⟩; omega
    · intro h; exfalso; revert h; rw [hl]; split_ifs <;> omega
  have e : PosWire.hasAltitude (b.take n) ↔ unit d.alte = 1 := by
    rw [← f1, ← bitAt_take (show 12 < n by omega)]; rfl
  rw [e, hl]
  split_ifs <;> omega

theorem enough_auth (d : SrAuthInfo) (hw : d.WF) (b : Bytes) (h : d.encode = .ok b) (n : Nat) (hn : n ≤ b.length) :
    (∃ y, SrAuthInfo.decode {} (b.take n) = .ok y) ↔
      (n = b.length ∨ d.serverSequence ≠ [] ∧ n = d.userName.length + 1 + d.userPassword.length + 1) := by
  obtain ⟨u, p, s⟩ := d
  obtain ⟨hu, hp, hs⟩ := hw
  by_cases h0 : s = []
  · subst h0
    constructor
    · rintro ⟨y, hy⟩
      by_contra hc
      obtain ⟨e, he⟩ := C39_auth_partial ⟨u, p, []⟩ {} ⟨hu, hp, hs⟩ rfl b h n (by simp at hc; omega)
      rw [he] at hy
      cases hy
    · rintro (rfl | ⟨h, -⟩)
      · obtain ⟨b', he, hd⟩ := auth_rt ⟨u, p, []⟩ {} ⟨hu, hp, hs⟩
        rw [h] at he
        cases he
        exact ⟨_, by rw [List.take_length]; exact hd⟩
      · exact absurd rfl h
  · simp only [SrAuthInfo.encode, Except.ok.injEq, ne_eq, h0, not_false_eq_true, if_true] at h
    simp only at hu hp hs ⊢
    have hb : b = (u ++ 0 :: (p ++ [0])) ++ (s ++ [0]) := by rw [← h]; simp
    have hlen : (u ++ 0 :: (p ++ [0])).length = u.length + 1 + p.length + 1 := by simp; omega
    subst hb
    clear h
    by_cases h1 : n < (u ++ 0 :: (p ++ [0])).length
    · have e : ∀ y, SrAuthInfo.decode {} (((u ++ 0 :: (p ++ [0])) ++ (s ++ [0])).take n) ≠ .ok y := by
        intro y
        rw [List.take_append_of_le_length (by omega)]
        rcases two_strings _ _ hu hp n h1 with h | ⟨r, h1, h2⟩
        · rw [SrAuthInfo.decode, h]; intro h; cases h
        · rw [SrAuthInfo.decode, h1, ok_bind]; simp only [h2]; intro h; cases h
      constructor
      · rintro ⟨y, hy⟩; exact absurd hy (e y)
      · rintro (h | ⟨-, h⟩)
        · rw [List.length_append] at h; omega
        · omega
    · obtain ⟨m, rfl⟩ : ∃ m, n = (u ++ 0 :: (p ++ [0])).length + m := ⟨n - (u ++ 0 :: (p ++ [0])).length, by omega⟩
      have hb : ((u ++ 0 :: (p ++ [0])) ++ (s ++ [0])).length = (u ++ 0 :: (p ++ [0])).length + (s ++ [0]).length := List.length_append
      rw [hb] at hn ⊢
      rw [List.take_length_add_append]
      have hs2 : (s ++ [0]).length = s.length + 1 := by simp
      have e : SrAuthInfo.decode {} (u ++ 0 :: (p ++ [0]) ++ (s ++ [0]).take m) =
          if (s ++ [0]).take m ≠ [] then (readCString ((s ++ [0]).take m)).bind fun x => .ok ⟨u, p, x.1⟩ else .ok ⟨u, p, []⟩ := by
        have e1 : readCString (u ++ 0 :: (p ++ [0]) ++ (s ++ [0]).take m) = .ok (u, p ++ 0 :: (s ++ [0]).take m) := by
          rw [List.append_assoc, List.cons_append, List.append_assoc]
          exact readCString_append u _ hu
        rw [SrAuthInfo.decode, e1, ok_bind]
        simp only [readCString_append p _ hp, ok_bind]
        rfl
      rw [e, hlen]
      by_cases hm : m = 0
      · subst hm
        rw [List.take_zero, if_neg (by simp)]
        exact ⟨fun _ => .inr ⟨h0, rfl⟩, fun _ => ⟨_, rfl⟩⟩
      rw [if_pos (by rw [ne_eq, List.take_eq_nil_iff]; simp [hm])]
      by_cases hf : m = s.length + 1
      · subst hf
        rw [← hs2, List.take_length, readCString_append s [] hs]
        exact ⟨fun _ => .inl (by omega), fun _ => ⟨_, rfl⟩⟩
      · rw [List.take_append_of_le_length (by omega), readCString_noNul _ (fun h => hs (List.mem_of_mem_take h))]
        constructor
        · rintro ⟨y, hy⟩; cases hy
        · rintro (h | ⟨-, h⟩) <;> omega

end Egts
