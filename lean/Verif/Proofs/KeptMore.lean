import Verif.Proofs.Kept
import Verif.Props.Proto

/-! # What is encoded again of what was decoded: sensors, counters, texts, positions -/

namespace Egts
open Layout

theorem seg0_append (b : Bytes) (n m : Nat) : seg b 0 n ++ seg b n m = seg b 0 (n + m) := by
  have := seg_append b 0 n m; rwa [Nat.zero_add] at this

theorem bitStr_inj {m n : Nat} (hm : m < 2) (hn : n < 2) : bitStr m = bitStr n ↔ m = n := by
  have : ∀ m n : Fin 2, bitStr m.val = bitStr n.val ↔ m.val = n.val := by decide
  exact this ⟨m, hm⟩ ⟨n, hn⟩

/-! ## Sensors -/

theorem adSens_set (d : SrAdSensorsData) (h : d.FlagsWF) : ∃ fa, d.encode = .ok (d.wire.set 2 fa) := by
  obtain ⟨di1, di2, di3, di4, di5, di6, di7, di8, dout, as1, as2, as3, as4, as5, as6, as7, as8,
    ad1, ad2, ad3, ad4, ad5, ad6, ad7, ad8, an1, an2, an3, an4, an5, an6, an7, an8⟩ := d
  obtain ⟨h1, h2, h3, h4, h5, h6, h7, h8, g1, g2, g3, g4, g5, g6, g7, g8⟩ := h
  obtain ⟨f1, rfl⟩ := isBit_iff.mp h1
  obtain ⟨f2, rfl⟩ := isBit_iff.mp h2
  obtain ⟨f3, rfl⟩ := isBit_iff.mp h3
  obtain ⟨f4, rfl⟩ := isBit_iff.mp h4
  obtain ⟨f5, rfl⟩ := isBit_iff.mp h5
  obtain ⟨f6, rfl⟩ := isBit_iff.mp h6
  obtain ⟨f7, rfl⟩ := isBit_iff.mp h7
  obtain ⟨f8, rfl⟩ := isBit_iff.mp h8
  obtain ⟨a1, rfl⟩ := isBit_iff.mp g1
  obtain ⟨a2, rfl⟩ := isBit_iff.mp g2
  obtain ⟨a3, rfl⟩ := isBit_iff.mp g3
  obtain ⟨a4, rfl⟩ := isBit_iff.mp g4
  obtain ⟨a5, rfl⟩ := isBit_iff.mp g5
  obtain ⟨a6, rfl⟩ := isBit_iff.mp g6
  obtain ⟨a7, rfl⟩ := isBit_iff.mp g7
  obtain ⟨a8, rfl⟩ := isBit_iff.mp g8
  have hp1 := parseFlags_bits f8 f7 f6 f5 f4 f3 f2 f1
  have hp2 := parseFlags_bits a1 a2 a3 a4 a5 a6 a7 a8
  refine ⟨mk8 a1 a2 a3 a4 a5 a6 a7 a8, ?_⟩
  simp only [SrAdSensorsData.wire, flagByte8, ifSet_eq, leBytes3, List.append_assoc, List.cons_append, List.nil_append,
    SrAdSensorsData.encode, hp1, hp2, ok_bind, pure_eq_ok, List.set_cons_succ, List.set_cons_zero]

theorem adSens_flags (b : Bytes) : (SrAdSensorsData.read {} b).FlagsWF :=
  ⟨bitStr_isBit _, bitStr_isBit _, bitStr_isBit _, bitStr_isBit _, bitStr_isBit _, bitStr_isBit _, bitStr_isBit _, bitStr_isBit _,
   bitStr_isBit _, bitStr_isBit _, bitStr_isBit _, bitStr_isBit _, bitStr_isBit _, bitStr_isBit _, bitStr_isBit _, bitStr_isBit _⟩

theorem adSens_wire (b : Bytes) (h : sizeSensors b ≤ b.length) : (SrAdSensorsData.read {} b).wire = seg b 0 (sizeSensors b) := by
  have h' : 3 + count b 0 8 + 3 * count b 2 8 ≤ b.length := h
  have fd : flagByte [(7, bitStr (bitAt b 0 7)), (6, bitStr (bitAt b 0 6)), (5, bitStr (bitAt b 0 5)), (4, bitStr (bitAt b 0 4)), (3, bitStr (bitAt b 0 3)),
      (2, bitStr (bitAt b 0 2)), (1, bitStr (bitAt b 0 1)), (0, bitStr (bitAt b 0 0))] = UInt8.ofNat (byteAt b 0) := flags8 _ (byteAt_lt b 0)
  have fa : flagByte [(7, bitStr (bitAt b 2 7)), (6, bitStr (bitAt b 2 6)), (5, bitStr (bitAt b 2 5)), (4, bitStr (bitAt b 2 4)), (3, bitStr (bitAt b 2 3)),
      (2, bitStr (bitAt b 2 2)), (1, bitStr (bitAt b 2 1)), (0, bitStr (bitAt b 2 0))] = UInt8.ofNat (byteAt b 2) := flags8 _ (byteAt_lt b 2)
  have dk : ∀ k < 8, ∀ old : UInt8, ifSet (bitStr (bitAt b 0 k)) [opt (bitAt b 0 k) (UInt8.ofNat (byteAt b (3 + count b 0 k))) old] =
      seg b (3 + 1 * count b 0 k) (1 * bitAt b 0 k) := by
    intro k hk old
    have hs := count_step b 0 k 8 hk
    refine opt_seg (bitAt_lt b 0 k) fun e => ?_
    rw [opt_pos e, Nat.one_mul, seg_one (by omega)]
  have ak : ∀ k < 8, ∀ old : UInt32, ifSet (bitStr (bitAt b 2 k)) (leBytes 3 (opt (bitAt b 2 k) (UInt32.ofNat (num24 b (3 + count b 0 8) (count b 2 k))) old).toNat) =
      seg b (3 + count b 0 8 + 3 * count b 2 k) (3 * bitAt b 2 k) := by
    intro k hk old
    have hs := count_step b 2 k 8 hk
    refine opt_seg (bitAt_lt b 2 k) fun e => ?_
    rw [opt_pos e, num24_full (by omega), seg_num3 (by omega)]
  have d8 := count_flat b 0 3 1 8
  have a8 := count_flat b 2 (3 + count b 0 8) 3 8
  rw [flat8] at d8 a8
  rw [SrAdSensorsData.wire, SrAdSensorsData.read]
  simp only [fd, fa]
  rw [dk 0 (by omega), dk 1 (by omega), dk 2 (by omega), dk 3 (by omega), dk 4 (by omega), dk 5 (by omega), dk 6 (by omega), dk 7 (by omega),
    ak 0 (by omega), ak 1 (by omega), ak 2 (by omega), ak 3 (by omega), ak 4 (by omega), ak 5 (by omega), ak 6 (by omega), ak 7 (by omega)]
  have h3 : [UInt8.ofNat (byteAt b 0), UInt8.ofNat (byteAt b 1), UInt8.ofNat (byteAt b 2)] = seg b 0 3 := by
    rw [seg_succ (by omega), seg_succ (by omega), seg_succ (by omega), seg_zero]
  rw [h3]
  have e1 : seg b 0 (sizeSensors b) = seg b 0 3 ++ (seg b 3 (1 * count b 0 8) ++ seg b (3 + count b 0 8) (3 * count b 2 8)) := by
    rw [Nat.one_mul, seg_append, seg0_append, sizeSensors, Nat.add_assoc]
  rw [e1, ← d8, ← a8]
  simp only [List.append_assoc]

theorem again_adSens (env : Env) (b : Bytes) (h : sizeSensors b ≤ b.length) :
    Again env (.adSens (SrAdSensorsData.read {} b)) b (b.length = sizeSensors b ∧ ∀ k < 4, bitAt b 2 k = bitAt b 2 (7 - k)) := by
  have hm : (SrAdSensorsData.read {} b).Mirror ↔ ∀ k < 4, bitAt b 2 k = bitAt b 2 (7 - k) := by
    have hb := bitAt_lt b 2
    show (bitStr (bitAt b 2 0) = bitStr (bitAt b 2 7) ∧ bitStr (bitAt b 2 1) = bitStr (bitAt b 2 6) ∧ bitStr (bitAt b 2 2) = bitStr (bitAt b 2 5) ∧
      bitStr (bitAt b 2 3) = bitStr (bitAt b 2 4)) ↔ _
    rw [bitStr_inj (hb _) (hb _), bitStr_inj (hb _) (hb _), bitStr_inj (hb _) (hb _), bitStr_inj (hb _) (hb _)]
    constructor
    · rintro ⟨h0, h1, h2, h3⟩ k hk
      match k, hk with
      | 0, _ => exact h0
      | 1, _ => exact h1
      | 2, _ => exact h2
      | 3, _ => exact h3
    · intro h
      exact ⟨h 0 (by omega), h 1 (by omega), h 2 (by omega), h 3 (by omega)⟩
  obtain ⟨fa, he⟩ := adSens_set _ (adSens_flags b)
  have hw := adSens_wire b h
  have hl : ((SrAdSensorsData.read {} b).wire.set 2 fa).length = sizeSensors b := by rw [List.length_set, hw, seg_length (by omega)]
  refine ⟨_, he, by omega, ?_⟩
  rw [← hm, ← C64_ad_sensors_encode_partial _ (adSens_flags b), he, Except.ok.injEq]
  constructor
  · intro e
    have h1 : b.length = sizeSensors b := by rw [← hl, e]
    exact ⟨h1, by rw [e, hw, seg_full h1]⟩
  · rintro ⟨h1, h2⟩
    rw [h2, hw, seg_full h1]

/-! ## Counters -/

theorem again_counters (env : Env) (b : Bytes) (h : sizeCounters b ≤ b.length) :
    Again env (.counters (SrCountersData.read {} b)) b
      (b.length = sizeCounters b ∧ (bitAt b 0 1 = 1 → num b 1 3 = 0 ∧ (bitAt b 0 0 = 1 → num b 4 3 = 0))) := by
  have h' : 1 + 3 * count b 0 8 ≤ b.length := h
  have hb := bitAt_lt b 0
  have hb0 := hb 0
  have fd : flagByte [(7, bitStr (bitAt b 0 7)), (6, bitStr (bitAt b 0 6)), (5, bitStr (bitAt b 0 5)), (4, bitStr (bitAt b 0 4)), (3, bitStr (bitAt b 0 3)),
      (2, bitStr (bitAt b 0 2)), (1, bitStr (bitAt b 0 1)), (0, bitStr (bitAt b 0 0))] = UInt8.ofNat (byteAt b 0) := flags8 _ (byteAt_lt b 0)
  have ak : ∀ k < 8, ∀ old : UInt32, ifSet (bitStr (bitAt b 0 k)) (leBytes 3 (opt (bitAt b 0 k) (UInt32.ofNat (num24 b 1 (count b 0 k))) old).toNat) =
      seg b (1 + 3 * count b 0 k) (3 * bitAt b 0 k) := by
    intro k hk old
    have hs := count_step b 0 k 8 hk
    refine opt_seg (bitAt_lt b 0 k) fun e => ?_
    rw [opt_pos e, num24_full (by omega), seg_num3 (by omega)]
  have c2 : count b 0 2 = bitAt b 0 0 + bitAt b 0 1 := by simp [count]
  have hc2 : count b 0 2 ≤ count b 0 8 := count_mono b 0 (by omega)
  -- the first two counters as they are sent
  have enc : (SubData.counters (SrCountersData.read {} b)).encode env = .ok (seg b 0 1 ++
      (ifSet (bitStr (bitAt b 0 0)) (leBytes 3 (SrCountersData.read {} b).cn1.toNat) ++ ifSet (bitStr (bitAt b 0 1)) (leBytes 3 0) ++
      seg b (1 + 3 * count b 0 2) (3 * count b 0 8 - 3 * count b 0 2))) := by
    show (SrCountersData.read {} b).encode = _
    rw [C64_counters_encode _ ⟨bitStr_isBit _, bitStr_isBit _, bitStr_isBit _, bitStr_isBit _, bitStr_isBit _, bitStr_isBit _, bitStr_isBit _, bitStr_isBit _⟩,
      SrCountersData.wire]
    have e0 : (SrCountersData.read {} b).cn2 = 0 := rfl
    rw [e0]
    generalize hc1 : (SrCountersData.read {} b).cn1 = cn1
    simp only [SrCountersData.read, fd]
    rw [ak 2 (by omega), ak 3 (by omega), ak 4 (by omega), ak 5 (by omega), ak 6 (by omega), ak 7 (by omega), seg_one (by omega)]
    have e6 : seg b (1 + 3 * count b 0 2) (3 * count b 0 8 - 3 * count b 0 2) = seg b (1 + 3 * count b 0 2) (3 * bitAt b 0 2) ++
        seg b (1 + 3 * count b 0 3) (3 * bitAt b 0 3) ++ seg b (1 + 3 * count b 0 4) (3 * bitAt b 0 4) ++ seg b (1 + 3 * count b 0 5) (3 * bitAt b 0 5) ++
        seg b (1 + 3 * count b 0 6) (3 * bitAt b 0 6) ++ seg b (1 + 3 * count b 0 7) (3 * bitAt b 0 7) := by
      have st : ∀ k, count b 0 (k + 1) = count b 0 k + bitAt b 0 k := fun _ => rfl
      rw [show 1 + 3 * count b 0 3 = 1 + 3 * count b 0 2 + 3 * bitAt b 0 2 by rw [st 2]; omega, seg_append,
        show 1 + 3 * count b 0 4 = 1 + 3 * count b 0 2 + (3 * bitAt b 0 2 + 3 * bitAt b 0 3) by rw [st 3, st 2]; omega, seg_append,
        show 1 + 3 * count b 0 5 = 1 + 3 * count b 0 2 + (3 * bitAt b 0 2 + 3 * bitAt b 0 3 + 3 * bitAt b 0 4) by rw [st 4, st 3, st 2]; omega, seg_append,
        show 1 + 3 * count b 0 6 = 1 + 3 * count b 0 2 + (3 * bitAt b 0 2 + 3 * bitAt b 0 3 + 3 * bitAt b 0 4 + 3 * bitAt b 0 5) by
          rw [st 5, st 4, st 3, st 2]; omega, seg_append,
        show 1 + 3 * count b 0 7 = 1 + 3 * count b 0 2 + (3 * bitAt b 0 2 + 3 * bitAt b 0 3 + 3 * bitAt b 0 4 + 3 * bitAt b 0 5 + 3 * bitAt b 0 6) by
          rw [st 6, st 5, st 4, st 3, st 2]; omega, seg_append]
      congr 1
      rw [st 7, st 6, st 5, st 4, st 3, st 2]; omega
    rw [e6]
    simp only [List.append_assoc]
    rfl
  have l3 : ∀ n, (leBytes 3 n).length = 3 := fun n => rfl
  have hlen : ∀ (n : Nat) x, n < 2 → (ifSet (bitStr n) (leBytes 3 x)).length = 3 * n := by
    intro n x hn
    rw [ifSet_bit]
    by_cases h1 : n = 1
    · rw [if_pos h1, l3, h1]
    · rw [if_neg h1, show n = 0 by omega]; rfl
  have whole : seg b 0 (sizeCounters b) = seg b 0 1 ++ (seg b 1 (3 * count b 0 2) ++ seg b (1 + 3 * count b 0 2) (3 * count b 0 8 - 3 * count b 0 2)) := by
    rw [seg_append, seg0_append, sizeCounters]
    congr 1; omega
  -- sent as they came
  have pair : ifSet (bitStr (bitAt b 0 0)) (leBytes 3 (SrCountersData.read {} b).cn1.toNat) ++ ifSet (bitStr (bitAt b 0 1)) (leBytes 3 0) = seg b 1 (3 * count b 0 2) ↔
      (bitAt b 0 1 = 1 → num b 1 3 = 0 ∧ (bitAt b 0 0 = 1 → num b 4 3 = 0)) := by
    have hcn : (SrCountersData.read {} b).cn1 = opt (bitAt b 0 1) (UInt32.ofNat (num24 b 1 (count b 0 1))) (opt (bitAt b 0 0) (UInt32.ofNat (num24 b 1 (count b 0 0))) 0) := rfl
    have z3 : ∀ n, n < 256 ^ 3 → leBytes 3 n = leBytes 3 0 → n = 0 := by
      intro n hn e
      simp only [leBytes, List.cons.injEq, and_true] at e
      have e0 := congrArg UInt8.toNat e.1
      have e1 := congrArg UInt8.toNat e.2.1
      have e2 := congrArg UInt8.toNat e.2.2
      simp at e0 e1 e2
      omega
    have c1 : count b 0 1 = bitAt b 0 0 := by simp [count]
    have c0 : count b 0 0 = 0 := rfl
    rcases (show bitAt b 0 0 = 0 ∨ bitAt b 0 0 = 1 by omega) with p0 | p0 <;>
      rcases (show bitAt b 0 1 = 0 ∨ bitAt b 0 1 = 1 by have := hb 1; omega) with p1 | p1
    · rw [ifSet_bit, ifSet_bit, c2, p0, p1]; simp [seg_zero]
    · rw [ifSet_bit, ifSet_bit, c2, p0, p1]
      simp only [if_neg (show ¬ (0 : Nat) = 1 by omega), if_pos, List.nil_append, true_implies]
      rw [show 3 * (0 + 1) = 3 from rfl, ← seg_num b 3 1 (by omega)]
      constructor
      · intro e
        exact ⟨z3 _ (num_lt b 3 1) e.symm, fun h => by omega⟩
      · rintro ⟨e, _⟩; rw [e]
    · rw [ifSet_bit, ifSet_bit, hcn, c2, c0, p0, p1]
      simp only [if_neg (show ¬ (0 : Nat) = 1 by omega), if_pos, List.append_nil]
      rw [show opt 0 (UInt32.ofNat (num24 b 1 (count b 0 1))) (opt 1 (UInt32.ofNat (num24 b 1 0)) 0) = UInt32.ofNat (num24 b 1 0) from rfl,
        num24_full (by omega), seg_num3 (by omega)]
      simp
    · rw [ifSet_bit, ifSet_bit, hcn, c2, c1, p0, p1]
      simp only [if_pos, true_implies]
      rw [show opt 1 (UInt32.ofNat (num24 b 1 1)) (opt 1 (UInt32.ofNat (num24 b 1 (count b 0 0))) 0) = UInt32.ofNat (num24 b 1 1) from rfl,
        num24_full (by omega), seg_num3 (by omega), show 3 * (1 + 1) = 3 + 3 from rfl, ← seg_append, show 1 + 3 * 1 = 4 from rfl,
        ← seg_num b 3 4 (by omega), ← seg_num b 3 1 (by omega)]
      constructor
      · intro e
        obtain ⟨e1, e2⟩ := List.append_inj e rfl
        have z := z3 _ (num_lt b 3 4) e2.symm
        rw [z] at e1
        exact ⟨z3 _ (num_lt b 3 1) e1.symm, z⟩
      · rintro ⟨e1, e2⟩; rw [e1, e2]
  have hwl : (seg b 0 1 ++ (ifSet (bitStr (bitAt b 0 0)) (leBytes 3 (SrCountersData.read {} b).cn1.toNat) ++ ifSet (bitStr (bitAt b 0 1)) (leBytes 3 0) ++
      seg b (1 + 3 * count b 0 2) (3 * count b 0 8 - 3 * count b 0 2))).length = sizeCounters b := by
    rw [List.length_append, List.length_append, List.length_append, hlen _ _ (hb 0), hlen _ _ (hb 1), seg_length (by omega), seg_length (by omega), sizeCounters]
    omega
  refine ⟨_, enc, by rw [hwl]; exact h, ?_⟩
  rw [← pair]
  constructor
  · intro e
    have h1 : b.length = sizeCounters b := by rw [← hwl, e]
    refine ⟨h1, ?_⟩
    have e' := e.trans ((seg_full h1).symm.trans whole)
    have e2 := List.append_cancel_left e'
    exact (List.append_inj_left e2 (by rw [List.length_append, hlen _ _ (hb 0), hlen _ _ (hb 1), seg_length (by omega)]; omega))
  · rintro ⟨h1, h2⟩
    rw [h2, ← whole, seg_full h1]

/-! ## Texts -/

theorem count_noNul {s : Bytes} (h : NoNul s) : s.count 0 = 0 := List.count_eq_zero.mpr h

theorem again_auth (env : Env) (b : Bytes) (y : SrAuthInfo) (h : SrAuthInfo.Read {} b y) :
    Again env (.auth y) b (b.count 0 = 2 ∨ b.count 0 = 3 ∧ b.getLast? = some 0 ∧ b.dropLast.getLast? ≠ some 0) := by
  obtain ⟨h1, h2, h3⟩ := h
  rcases h3 with ⟨hb, hs⟩ | ⟨rest, hb, h3⟩
  · have hs' : y.serverSequence = [] := hs
    have hw : y.wire = b := by rw [SrAuthInfo.wire, if_pos hs', List.append_nil, hb]
    refine ⟨b, ?_, Nat.le_refl _, ?_⟩
    · show y.encode = _
      rw [(C64_auth_info y {} ⟨h1, h2, by rw [hs']; simp [NoNul]⟩).1, hw]
    · refine ⟨fun _ => .inl ?_, fun _ => rfl⟩
      rw [hb]
      simp [List.count_append, count_noNul h1, count_noNul h2]
  · have he : (SubData.auth y).encode env = .ok y.wire := (C64_auth_info y {} ⟨h1, h2, h3⟩).1
    have hc : b.count 0 = 3 + rest.count 0 := by
      rw [hb]
      simp [List.count_append, count_noNul h1, count_noNul h2, count_noNul h3]
      omega
    refine ⟨_, he, ?_, ?_⟩
    · rw [hb, SrAuthInfo.wire]
      split
      · simp only [List.length_append, List.length_cons, List.length_nil]; omega
      · simp only [List.length_append, List.length_cons, List.length_nil]; omega
    · constructor
      · intro e
        right
        rw [SrAuthInfo.wire] at e
        split at e
        · rename_i hz
          have := congrArg List.length e
          rw [hb] at this
          simp only [List.length_append, List.length_cons, List.length_nil] at this
          omega
        · rename_i hz
          have hr : rest = [] := by
            have := congrArg List.length e
            rw [hb] at this
            simp only [List.length_append, List.length_cons, List.length_nil] at this
            exact List.length_eq_zero_iff.mp (by omega)
          refine ⟨by rw [hc, hr]; rfl, ?_, ?_⟩
          · rw [hb, hr, List.append_nil, List.getLast?_append]; rfl
          · rw [hb, hr, List.append_nil, List.dropLast_concat, List.getLast?_append]
            obtain ⟨x, hx⟩ : ∃ x, y.serverSequence.getLast? = some x := by
              cases hq : y.serverSequence.getLast? with
              | none => exact absurd (List.getLast?_eq_none_iff.mp hq) hz
              | some x => exact ⟨x, rfl⟩
            rw [hx]
            intro h0
            simp at h0
            subst h0
            exact h3 (List.mem_of_getLast? hx)
      · intro hk
        rcases hk with hk | ⟨hk, hl, hz⟩
        · omega
        · have hr0 : rest.count 0 = 0 := by omega
          have hr : rest = [] := by
            cases hq : rest.getLast? with
            | none => exact List.getLast?_eq_none_iff.mp hq
            | some x =>
              rw [hb, List.getLast?_append, hq] at hl
              simp at hl
              subst hl
              exact absurd (List.mem_of_getLast? hq) (List.count_eq_zero.mp hr0)
          rw [hr, List.append_nil] at hb
          have hne : y.serverSequence ≠ [] := by
            intro e
            apply hz
            rw [hb, List.dropLast_concat, e, List.append_nil, List.getLast?_append]; rfl
          rw [SrAuthInfo.wire, if_neg hne, hb]
          simp only [List.append_assoc]

theorem again_module (env : Env) (b : Bytes) (y : SrModuleData) (h : SrModuleData.Read b y) :
    Again env (.module y) b ((b.drop 11).count 0 = 2 ∧ b.getLast? = some 0) := by
  obtain ⟨hl, m1, m2, m3, m4, m5, m6, h1, h2, rest, hb⟩ := h
  have he : (SubData.module y).encode env = .ok y.wire := (C64_module_data y {} [] ⟨h1, h2⟩).1
  have u1 : [y.moduleType] = seg b 0 1 := by rw [← seg_one (by omega), ← m1, UInt8.ofNat_toNat]
  have u5 : y.modification = UInt8.ofNat (byteAt b 9) := by rw [← m5, UInt8.ofNat_toNat]
  have u6 : y.state = UInt8.ofNat (byteAt b 10) := by rw [← m6, UInt8.ofNat_toNat]
  have u56 : [y.modification, y.state] = seg b 9 2 := by rw [seg_succ (by omega), seg_succ (by omega), seg_zero, u5, u6]
  have hw : y.wire = seg b 0 11 ++ (y.serialNumber ++ [0] ++ y.description ++ [0]) := by
    rw [SrModuleData.wire, u1, m2, m3, m4, u56, seg_num b 4 1 (by omega), seg_num b 2 5 (by omega), seg_num b 2 7 (by omega), seg0_append, seg0_append, seg0_append, seg0_append]
    simp only [List.append_assoc]
  have hbw : b = y.wire ++ rest := by
    rw [hw, List.append_assoc, ← hb]
    exact (List.take_append_drop 11 b).symm
  have hc : (b.drop 11).count 0 = 2 + rest.count 0 := by
    rw [hb]
    simp [List.count_append, count_noNul h1, count_noNul h2]
    omega
  refine ⟨_, he, by conv => rhs; rw [hbw, List.length_append]
                    omega, ?_⟩
  constructor
  · intro e
    have hr : rest = [] := by
      have := congrArg List.length (e.trans hbw)
      rw [List.length_append] at this
      exact List.length_eq_zero_iff.mp (by omega)
    refine ⟨by rw [hc, hr]; rfl, ?_⟩
    rw [← e, hw, ← List.append_assoc, List.getLast?_append]; rfl
  · rintro ⟨hk, hz⟩
    have hr0 : rest.count 0 = 0 := by omega
    have hr : rest = [] := by
      cases hq : rest.getLast? with
      | none => exact List.getLast?_eq_none_iff.mp hq
      | some x =>
        rw [hbw, List.getLast?_append, hq] at hz
        simp at hz
        subst hz
        exact absurd (List.mem_of_getLast? hq) (List.count_eq_zero.mp hr0)
    rw [hr, List.append_nil] at hbw
    exact hbw.symm

theorem again_plus (env : Env) (b : Bytes) (y : StorageRecord) (h : Proto.IsRecord b y) (hc : ∃ y : StorageRecord, y.Valid ∧ y.encode = .ok b) :
    Again env (.plus y) b (∃ y : StorageRecord, y.Valid ∧ y.encode = .ok b) := by
  obtain ⟨y', hv, he⟩ := hc
  obtain ⟨b', h1, h2⟩ := C76_encode_format y' hv
  rw [he] at h1; cases h1
  have := C76_unambiguous b y y' h h2
  subst this
  exact ⟨b, he, Nat.le_refl _, fun _ => ⟨y, hv, he⟩, fun _ => rfl⟩

/-! ## Positions -/

theorem pos_parts (env : Env) (b : Bytes) (h : sizePos b ≤ b.length) : (SubData.pos (PosWire.record {} b)).encode env = .ok (seg b 0 4 ++
    (put32 (encLat env (decLat (UInt32.ofNat (PosWire.lat b)))) ++ (put32 (encLon env (decLon (UInt32.ofNat (PosWire.lon b)))) ++ (seg b 12 1 ++
    (leBytes 2 (PosWire.speed10 b / 10 * 10 + PosWire.alts b * 2 ^ 14 + PosWire.dirh b * 2 ^ 15) ++
    ([UInt8.ofNat (if PosWire.dirh b = 1 then byteAt b 15 % 128 else byteAt b 15)] ++ (seg b 16 5 ++ seg b 21 (3 * PosWire.flag b 7)))))))) := by
  have hb := byteAt_lt b
  have hf : PosWire.flag b 7 < 2 := bitAt_lt b 12 7
  have hsz : 21 + 3 * PosWire.flag b 7 ≤ b.length := h
  have ht : PosWire.time b = num b 0 4 := (num4 b 0).symm
  have hsp : PosWire.speed10 b < 16384 := Nat.mod_lt _ (by omega)
  have hd : PosWire.dirh b < 2 := by unfold PosWire.dirh; have := hb 14; omega
  have ha : PosWire.alts b < 2 := Nat.mod_lt _ (by omega)
  have ho : PosWire.odometer b = num b 16 3 := (num3 b 16).symm
  have w := posSpeedWord_eq ⟨PosWire.speed10 b / 10, by omega⟩ ⟨PosWire.dirh b, hd⟩ ⟨PosWire.alts b, ha⟩
  have w2 := posDirByte_eq ⟨if PosWire.dirh b = 1 then 128 + byteAt b 15 % 128 else byteAt b 15, by have := hb 15; split <;> omega⟩ ⟨PosWire.dirh b, hd⟩
  simp only at w w2
  have w3 : UInt8.ofNat (if UInt8.ofNat (PosWire.dirh b) = 1 then (if PosWire.dirh b = 1 then 128 + byteAt b 15 % 128 else byteAt b 15) % 128
      else (if PosWire.dirh b = 1 then 128 + byteAt b 15 % 128 else byteAt b 15)) = UInt8.ofNat (if PosWire.dirh b = 1 then byteAt b 15 % 128 else byteAt b 15) := by
    have he : UInt8.ofNat (PosWire.dirh b) = 1 ↔ PosWire.dirh b = 1 := u8_inj (n := 1) (by omega) (by omega)
    simp only [he]
    by_cases h1 : PosWire.dirh b = 1
    · simp only [if_pos h1]; congr 1; omega
    · simp only [if_neg h1]
  have fl : parseFlags (bitStr (PosWire.flag b 7) ++ bitStr (PosWire.flag b 6) ++ bitStr (PosWire.flag b 5) ++ bitStr (PosWire.flag b 4) ++ bitStr (PosWire.flag b 3) ++
      bitStr (PosWire.flag b 2) ++ bitStr (PosWire.flag b 1) ++ bitStr (PosWire.flag b 0)) = .ok (UInt8.ofNat (byteAt b 12)) := by
    have : ∀ n : Fin 256, parseFlags (bitStr (n.val / 2 ^ 7 % 2) ++ bitStr (n.val / 2 ^ 6 % 2) ++ bitStr (n.val / 2 ^ 5 % 2) ++ bitStr (n.val / 2 ^ 4 % 2) ++ bitStr (n.val / 2 ^ 3 % 2) ++
      bitStr (n.val / 2 ^ 2 % 2) ++ bitStr (n.val / 2 ^ 1 % 2) ++ bitStr (n.val / 2 ^ 0 % 2)) = .ok (UInt8.ofNat n.val) := by decide +kernel
    exact this ⟨byteAt b 12, hb 12⟩
  have hnum : num b 21 4 = PosWire.altitude b + 16777216 * byteAt b 24 := num4 b 21
  have fa : optBytes (bitStr (PosWire.flag b 7)) (put24 (PosWire.record {} b).altitude) = seg b 21 (3 * PosWire.flag b 7) := by
    rw [← ifSet_eq, ← leBytes3]
    refine opt_seg hf fun e => ?_
    have : (PosWire.record {} b).altitude = UInt32.ofNat (PosWire.altitude b + 16777216 * byteAt b 24) := if_pos e
    rw [this, ← hnum, UInt32.toNat_ofNat', Nat.mod_eq_of_lt (num4_lt b 21), ← seg_num b 3 21 (by omega), hnum, num3, show 21 + 1 = 22 from rfl, show 21 + 2 = 23 from rfl]
    have h1 := hb 21
    have h2 := hb 22
    have h3 := hb 23
    unfold PosWire.altitude
    simp only [leBytes, List.cons.injEq, and_true]
    refine ⟨?_, ?_, ?_⟩ <;> congr 1 <;> omega
  have f16 : put24 (UInt32.ofNat (PosWire.odometer b)) ++ [UInt8.ofNat (byteAt b 19), UInt8.ofNat (byteAt b 20)] = seg b 16 5 := by
    rw [← leBytes3, ho, seg_num3 (by omega), show (5 : Nat) = 3 + 2 from rfl, ← seg_append, seg_succ (b := b) (o := 16 + 3) (by omega),
      seg_succ (b := b) (o := 16 + 3 + 1) (by omega), seg_zero]
  show SrPosData.encode env (PosWire.record {} b) = _
  unfold SrPosData.encode
  rw [show (PosWire.record {} b).alte = bitStr (PosWire.flag b 7) from rfl, show (PosWire.record {} b).lohs = bitStr (PosWire.flag b 6) from rfl,
    show (PosWire.record {} b).lahs = bitStr (PosWire.flag b 5) from rfl, show (PosWire.record {} b).mv = bitStr (PosWire.flag b 4) from rfl,
    show (PosWire.record {} b).bb = bitStr (PosWire.flag b 3) from rfl, show (PosWire.record {} b).cs = bitStr (PosWire.flag b 2) from rfl,
    show (PosWire.record {} b).fix = bitStr (PosWire.flag b 1) from rfl, show (PosWire.record {} b).vld = bitStr (PosWire.flag b 0) from rfl,
    fl, ok_bind, pure_eq_ok, fa]
  rw [show (PosWire.record {} b).navigationTime = timeOffset + (PosWire.time b : Int) * 1000000000 from rfl,
    encNavTime_rt env _ (by rw [ht]; exact num4_lt b 0), ← leBytes4, ht, seg_num4 (by omega),
    show (PosWire.record {} b).latitude = decLat (UInt32.ofNat (PosWire.lat b)) from rfl,
    show (PosWire.record {} b).longitude = decLon (UInt32.ofNat (PosWire.lon b)) from rfl,
    show (PosWire.record {} b).speed = UInt16.ofNat (PosWire.speed10 b / 10) from rfl,
    show (PosWire.record {} b).directionHighestBit = UInt8.ofNat (PosWire.dirh b) from rfl,
    show (PosWire.record {} b).altitudeSign = UInt8.ofNat (PosWire.alts b) from rfl,
    show (PosWire.record {} b).direction = UInt8.ofNat (if PosWire.dirh b = 1 then 128 + byteAt b 15 % 128 else byteAt b 15) from rfl,
    w, w2, w3, show (PosWire.record {} b).odometer = UInt32.ofNat (PosWire.odometer b) from rfl,
    show (PosWire.record {} b).digitalInputs = UInt8.ofNat (byteAt b 19) from rfl, show (PosWire.record {} b).source = UInt8.ofNat (byteAt b 20) from rfl,
    ← f16, ← leBytes2_nat (by omega), seg_one (by omega)]
  simp only [List.append_assoc]

theorem put32_inj {x y : UInt32} (h : put32 x = put32 y) : x = y := by
  have hx := x.toNat_lt
  have hy := y.toNat_lt
  simp only [put32, List.cons.injEq, and_true] at h
  have e0 := congrArg UInt8.toNat h.1
  have e1 := congrArg UInt8.toNat h.2.1
  have e2 := congrArg UInt8.toNat h.2.2.1
  have e3 := congrArg UInt8.toNat h.2.2.2
  simp at e0 e1 e2 e3
  apply UInt32.toNat_inj.mp
  omega

theorem again_pos (env : Env) (b : Bytes) (h : sizePos b ≤ b.length) : Again env (.pos (PosWire.record {} b)) b (Kept env 16 b) := by
  have hb := byteAt_lt b
  have hf : PosWire.flag b 7 < 2 := bitAt_lt b 12 7
  have hsz : 21 + 3 * PosWire.flag b 7 ≤ b.length := h
  have hd : PosWire.dirh b < 2 := by unfold PosWire.dirh; have := hb 14; omega
  have l32 : ∀ x : UInt32, (put32 x).length = 4 := fun _ => rfl
  have l2 : ∀ n, (leBytes 2 n).length = 2 := fun _ => rfl
  have hla : put32 (UInt32.ofNat (PosWire.lat b)) = seg b 4 4 := by
    rw [← leBytes4, show PosWire.lat b = num b 4 4 from (num4 b 4).symm, seg_num4 (by omega)]
  have hlo : put32 (UInt32.ofNat (PosWire.lon b)) = seg b 8 4 := by
    rw [← leBytes4, show PosWire.lon b = num b 8 4 from (num4 b 8).symm, seg_num4 (by omega)]
  have whole : seg b 0 (sizePos b) = seg b 0 4 ++ (seg b 4 4 ++ (seg b 8 4 ++ (seg b 12 1 ++ (seg b 13 2 ++ (seg b 15 1 ++ (seg b 16 5 ++ seg b 21 (3 * PosWire.flag b 7))))))) := by
    rw [show seg b 21 (3 * PosWire.flag b 7) = seg b (16 + 5) (3 * PosWire.flag b 7) from rfl, seg_append,
      show seg b 16 (5 + 3 * PosWire.flag b 7) = seg b (15 + 1) (5 + 3 * PosWire.flag b 7) from rfl, seg_append,
      show seg b 15 (1 + (5 + 3 * PosWire.flag b 7)) = seg b (13 + 2) (1 + (5 + 3 * PosWire.flag b 7)) from rfl, seg_append,
      show seg b 13 (2 + (1 + (5 + 3 * PosWire.flag b 7))) = seg b (12 + 1) (2 + (1 + (5 + 3 * PosWire.flag b 7))) from rfl, seg_append,
      show seg b 12 (1 + (2 + (1 + (5 + 3 * PosWire.flag b 7)))) = seg b (8 + 4) (1 + (2 + (1 + (5 + 3 * PosWire.flag b 7)))) from rfl, seg_append,
      show seg b 8 (4 + (1 + (2 + (1 + (5 + 3 * PosWire.flag b 7))))) = seg b (4 + 4) (4 + (1 + (2 + (1 + (5 + 3 * PosWire.flag b 7))))) from rfl, seg_append,
      seg0_append, sizePos]
    congr 1; omega
  have speed : leBytes 2 (PosWire.speed10 b / 10 * 10 + PosWire.alts b * 2 ^ 14 + PosWire.dirh b * 2 ^ 15) = seg b 13 2 ↔ 10 ∣ PosWire.speed10 b := by
    have e : byteAt b 13 + 256 * byteAt b 14 = PosWire.speed10 b + PosWire.alts b * 2 ^ 14 + PosWire.dirh b * 2 ^ 15 := by
      have := hb 13; have := hb 14
      unfold PosWire.speed10 PosWire.alts PosWire.dirh; omega
    have hlt := num2_lt b 13
    rw [← seg_num b 2 13 (by omega)]
    rw [num2] at hlt ⊢
    rw [e] at hlt ⊢
    rw [leBytes2_nat hlt, leBytes2_nat (by omega)]
    constructor
    · intro hp
      have h2 : PosWire.speed10 b / 10 * 10 + PosWire.alts b * 2 ^ 14 + PosWire.dirh b * 2 ^ 15 = PosWire.speed10 b + PosWire.alts b * 2 ^ 14 + PosWire.dirh b * 2 ^ 15 := by
        simp only [put16, List.cons.injEq, and_true] at hp
        have e0 := congrArg UInt8.toNat hp.1
        have e1 := congrArg UInt8.toNat hp.2
        simp at e0 e1
        omega
      omega
    · rintro ⟨k, hk⟩
      rw [hk, Nat.mul_div_cancel_left _ (by omega), Nat.mul_comm k]
  have dir : [UInt8.ofNat (if PosWire.dirh b = 1 then byteAt b 15 % 128 else byteAt b 15)] = seg b 15 1 ↔ (PosWire.dirh b = 1 → byteAt b 15 < 128) := by
    have h15 := hb 15
    rw [← seg_one (by omega), List.cons.injEq, u8_inj (by split <;> omega) h15]
    by_cases h1 : PosWire.dirh b = 1
    · simp only [if_pos h1, and_true]; omega
    · simp [h1]
  refine ⟨_, pos_parts env b h, ?_, ?_⟩
  · simp only [List.length_append, l32, l2, seg_length (b := b) (o := 0) (n := 4) (by omega), seg_length (b := b) (o := 12) (n := 1) (by omega),
      seg_length (b := b) (o := 16) (n := 5) (by omega), seg_length (b := b) (o := 21) (n := 3 * PosWire.flag b 7) (by omega), List.length_cons, List.length_nil]
    omega
  · show _ ↔ b.length = sizePos b ∧ _
    constructor
    · intro e
      have h1 : b.length = sizePos b := by
        rw [← e]
        simp only [List.length_append, l32, l2, seg_length (b := b) (o := 0) (n := 4) (by omega), seg_length (b := b) (o := 12) (n := 1) (by omega),
          seg_length (b := b) (o := 16) (n := 5) (by omega), seg_length (b := b) (o := 21) (n := 3 * PosWire.flag b 7) (by omega), List.length_cons, List.length_nil]
        rw [e, sizePos]; omega
      have e := e.trans ((seg_full h1).symm.trans whole)
      have e := List.append_cancel_left e
      obtain ⟨e1, e⟩ := List.append_inj e (by rw [l32, seg_length (by omega)])
      obtain ⟨e2, e⟩ := List.append_inj e (by rw [l32, seg_length (by omega)])
      have e := List.append_cancel_left e
      obtain ⟨e3, e⟩ := List.append_inj e (by rw [l2, seg_length (by omega)])
      obtain ⟨e4, e⟩ := List.append_inj e (by rw [seg_length (by omega)]; rfl)
      exact ⟨h1, speed.mp e3, dir.mp e4, put32_inj (e1.trans hla.symm), put32_inj (e2.trans hlo.symm)⟩
    · rintro ⟨h1, h2, h3, h4, h5⟩
      rw [h4, h5, hla, hlo, speed.mpr h2, dir.mpr h3, ← whole, seg_full h1]

/-! ## All kinds -/

theorem again_kind (env : Env) {t len : Nat} {b : Bytes} {d : SubData} (h : IsKind t len b d) (hc : Complete t b) : Again env d b (Kept env t b) := by
  rcases h with h | h | h | h | h | h | h | h | h | h | h | h | h | h
  · obtain ⟨rfl, _, _, rfl⟩ := h; exact again_pos env b hc
  · obtain ⟨rfl, _, _, rfl⟩ := h; exact again_term env b hc
  · obtain ⟨rfl, y, hy, rfl⟩ := h; exact again_module env b y hy
  · obtain ⟨rfl, _, rfl⟩ := h; exact again_result env b hc
  · obtain ⟨rfl, _, _, rfl⟩ := h; exact again_extPos env b hc
  · obtain ⟨rfl, _, _, rfl⟩ := h; exact again_adSens env b hc
  · obtain ⟨h1, h2, rfl⟩ := h
    rcases h1 with ⟨rfl, _⟩ | rfl
    · exact again_state env b h2
    · exact again_state env b h2
  · obtain ⟨rfl, _, rfl⟩ := h; exact again_liquid env b hc
  · obtain ⟨rfl, _, rfl⟩ := h; exact again_absCntr env b hc
  · obtain ⟨rfl, y, hy, rfl⟩ := h; exact again_auth env b y hy
  · obtain ⟨rfl, _, _, rfl⟩ := h; exact again_counters env b hc
  · obtain ⟨rfl, y, hy, _, _, _, rfl⟩ := h; exact again_plus env b y hy hc
  · obtain ⟨rfl, _, rfl⟩ := h; exact again_absAn env b hc
  · obtain ⟨rfl, _, rfl⟩ := h; exact again_disp env b hc

theorem again_subrecord (env : Env) {t len : Nat} {b : Bytes} {d : SubData} (h : IsSubrecord t len b d) (hc : Complete t b) : Again env d b (Kept env t b) := by
  cases h with
  | plain t len b d h => exact again_kind env h hc
  | response len b rs h1 h2 => exact again_resp env b h1

end Egts
