import Verif.Spec.Sub
import Verif.Proofs.GoLemmas

namespace Egts

theorem isBit_iff {s : Bytes} : IsBit s ↔ ∃ b, s = bit b := by
  constructor
  · rintro (rfl | rfl)
    · exact ⟨false, rfl⟩
    · exact ⟨true, rfl⟩
  · rintro ⟨b, rfl⟩; cases b
    · exact .inl rfl
    · exact .inr rfl

theorem isBits2_iff {s : Bytes} : IsBits2 s ↔ ∃ a b, s = bit a ++ bit b := by
  constructor
  · rintro (rfl | rfl | rfl | rfl)
    · exact ⟨false, false, rfl⟩
    · exact ⟨false, true, rfl⟩
    · exact ⟨true, false, rfl⟩
    · exact ⟨true, true, rfl⟩
  · rintro ⟨a, b, rfl⟩; cases a <;> cases b <;> simp [IsBits2, bit]

@[simp] theorem present_bit {α : Type} (b : Bool) (x y : α) : present (bit b) x y = if b then x else y := by
  cases b <;> simp [present, bit]

theorem low24_eq (v : UInt32) : low24 v = UInt32.ofNat (v.toNat % 16777216) := rfl

theorem low24_of_lt (v : UInt32) (h : v.toNat < 2 ^ 24) : low24 v = v := by
  simp [low24, Nat.mod_eq_of_lt h, UInt32.ofNat_toNat]

theorem stateData_rt (d d0 : SrStateData) (h : d.WF) :
    ∃ b, d.encode = .ok b ∧ b.length = 5 ∧ SrStateData.decode d0 b = .ok d := by
  obtain ⟨st, mp, bb, ib, nms, ibu, bbu⟩ := d
  obtain ⟨h1, h2, h3⟩ := h
  obtain ⟨n, rfl⟩ := isBit_iff.mp h1
  obtain ⟨i, rfl⟩ := isBit_iff.mp h2
  obtain ⟨b, rfl⟩ := isBit_iff.mp h3
  have hp := parseFlags_bits false false false false false n i b
  refine ⟨[st, mp, bb, ib, mk8 false false false false false n i b], ?_, rfl, ?_⟩
  · simp only [SrStateData.encode, List.append_assoc]
    rw [show (go!"00000" : Bytes) = bit false ++ (bit false ++ (bit false ++ (bit false ++ bit false))) from rfl]
    simp only [List.append_assoc, hp]; rfl
  · simp [SrStateData.decode]

theorem resultCode_rt (d d0 : SrResultCode) :
    ∃ b, d.encode = .ok b ∧ b.length = 1 ∧ SrResultCode.decode d0 b = .ok d :=
  ⟨[d.resultCode], rfl, rfl, rfl⟩

theorem absCntr_rt (d d0 : SrAbsCntrData) :
    ∃ b, d.encode = .ok b ∧ b.length = 4 ∧
      SrAbsCntrData.decode d0 b = .ok { d with counterValue := low24 d.counterValue } := by
  refine ⟨_, rfl, rfl, ?_⟩
  have h := readerRead_put24 (buf := zeros 3) rfl d.counterValue []
  simp only [List.append_nil] at h
  simp only [SrAbsCntrData.decode, readByte_cons, ok_bind, h, le32_put24, low24_eq, pure_eq_ok]

theorem absAn_rt (d d0 : SrAbsAnSensData) :
    ∃ b, d.encode = .ok b ∧ b.length = 4 ∧
      SrAbsAnSensData.decode d0 b = .ok { d with value := low24 d.value } := by
  refine ⟨_, rfl, rfl, ?_⟩
  have hv := UInt32.toNat_lt d.value
  have h1 := uint8_toNat_lt d.sensorNumber
  simp only [SrAbsAnSensData.decode, List.length_cons, List.length_nil, List.headD_cons]
  rw [if_neg (by decide)]
  congr 2
  apply UInt32.toNat_inj.mp
  simp only [le32, low24, UInt32.toNat_shiftRight, UInt32.toNat_ofNat', UInt32.toNat_toUInt8,
    Nat.shiftRight_eq_div_pow, UInt32.reduceToNat, Nat.reduceMod, Nat.reducePow]
  omega

theorem fmt3_bits : ∀ n : Fin 8, ∃ a b c, fmt3 (UInt8.ofNat n.val) = bit a ++ (bit b ++ bit c) ∧
    parseFlags (bit a ++ (bit b ++ bit c)) = .ok (UInt8.ofNat n.val) := by decide +kernel

theorem sub58 : ∀ b7 b6 b5 b4 b3 b2 b1 b0 : Bool,
    substr (fmt8 (mk8 b7 b6 b5 b4 b3 b2 b1 b0)) 5 8 = bit b2 ++ (bit b1 ++ bit b0) := by
  decide +kernel

theorem liquid_rt (d d0 : SrLiquidLevelSensor) (h : d.WF) :
    ∃ b, d.encode = .ok b ∧ b.length = 7 ∧ SrLiquidLevelSensor.decode d0 b = .ok d := by
  obtain ⟨ef, vu, rf, sn, ma, sd⟩ := d
  obtain ⟨h1, h2, h3, h4⟩ := h
  obtain ⟨e, rfl⟩ := isBit_iff.mp h1
  obtain ⟨v1, v0, rfl⟩ := isBits2_iff.mp h2
  obtain ⟨r, rfl⟩ := isBit_iff.mp h3
  have h4' : sn.toNat < 8 := h4
  obtain ⟨a, b, c, hf, hp⟩ := fmt3_bits ⟨sn.toNat, h4'⟩
  simp only [UInt8.ofNat_toNat] at hf hp
  refine ⟨mk8 false e v1 v0 r a b c :: (put16 ma ++ put32 sd), ?_, rfl, ?_⟩
  · have := parseFlags_bits false e v1 v0 r a b c
    simp only [SrLiquidLevelSensor.encode, hf, List.append_assoc]
    rw [show (go!"0" : Bytes) = bit false from rfl, this]; rfl
  · have e2 := readerRead_put16 (buf := zeros 2) rfl ma (put32 sd)
    have e4 := readerRead_put32 (buf := zeros 4) rfl sd []
    simp only [List.append_nil] at e4
    simp only [SrLiquidLevelSensor.decode, readByte_cons, ok_bind, sub58, hp, e2, e4, sub12, sub24,
      sub45, le16_put16, le32_put32, pure_eq_ok]

theorem extPos_rt (d d0 : SrExtPosData) (h : d.WF) :
    ∃ b, d.encode = .ok b ∧ SrExtPosData.decode d0 b = .ok (d.onto d0) := by
  obtain ⟨nsfe, sfe, pfe, hfe, vfe, vdop, hdop, pdop, sat, ns⟩ := d
  obtain ⟨h1, h2, h3, h4, h5⟩ := h
  obtain ⟨n, rfl⟩ := isBit_iff.mp h1
  obtain ⟨s, rfl⟩ := isBit_iff.mp h2
  obtain ⟨p, rfl⟩ := isBit_iff.mp h3
  obtain ⟨hh, rfl⟩ := isBit_iff.mp h4
  obtain ⟨v, rfl⟩ := isBit_iff.mp h5
  refine ⟨mk8 false false false n s p hh v :: (optBytes (bit v) (put16 vdop)
    ++ (optBytes (bit hh) (put16 hdop) ++ (optBytes (bit p) (put16 pdop) ++ (optBytes (bit s) [sat]
    ++ (optBytes (bit n) (put16 ns) ++ []))))), ?_, ?_⟩
  · have := parseFlags_bits false false false n s p hh v
    simp only [SrExtPosData.encode, List.append_assoc]
    rw [show (go!"000" : Bytes) = bit false ++ (bit false ++ bit false) from rfl]
    simp only [List.append_assoc, this]
    simp
  · obtain ⟨t1, l1, e1⟩ := optU16_bit v vdop d0.vdop (tmp := zeros 2) (optBytes (bit hh) (put16 hdop) ++ (optBytes (bit p) (put16 pdop) ++ (optBytes (bit s) [sat]
      ++ (optBytes (bit n) (put16 ns) ++ [])))) rfl
    obtain ⟨t2, l2, e2⟩ := optU16_bit hh hdop d0.hdop (optBytes (bit p) (put16 pdop) ++ (optBytes (bit s) [sat]
      ++ (optBytes (bit n) (put16 ns) ++ []))) l1
    obtain ⟨t3, l3, e3⟩ := optU16_bit p pdop d0.pdop (optBytes (bit s) [sat]
      ++ (optBytes (bit n) (put16 ns) ++ [])) l2
    obtain ⟨t4, l4, e4⟩ := optU16_bit n ns d0.navigationSystem [] l3
    simp only [SrExtPosData.decode, readByte_cons, ok_bind, sub34, sub45, sub56, sub67, sub78, e1, e2, e3, e4,
      optU8_bit, pure_eq_ok, SrExtPosData.onto, present_bit]

/-- Bytes of a list of 24-bit values. -/
def vals24 (vs : List UInt32) : Bytes := vs.flatMap put24

theorem optU24_vals (g : Bool) (vs : List UInt32) (n : Nat) (old : UInt32) {tmp : Bytes} (h : tmp.length = 3)
    (hn : g = true → n < vs.length) :
    ∃ tmp', tmp'.length = 3 ∧ optU24 (bit g) old tmp (vals24 (vs.drop n)) =
      .ok (if g then low24 (vs.getD n 0) else old, tmp', vals24 (vs.drop (n + g.toNat))) := by
  cases g
  · exact ⟨tmp, h, by simp [optU24, bit]⟩
  · have hn := hn rfl
    refine ⟨put24 vs[n], rfl, ?_⟩
    have hd : vals24 (vs.drop n) = put24 vs[n] ++ vals24 (vs.drop (n + 1)) := by
      rw [vals24, List.drop_eq_getElem_cons hn, List.flatMap_cons]; rfl
    have := le32_put24 vs[n]
    rw [hd, List.getD_eq_getElem?_getD, List.getElem?_eq_getElem hn]
    simp [optU24, bit, readerRead_put24 h, this, low24]

theorem vals24_opt (g : Bool) (v : UInt32) (vs : List UInt32) :
    optBytes (bit g) (put24 v) ++ vals24 vs = vals24 ((if g then [v] else []) ++ vs) := by
  cases g <;> simp [optBytes, bit, vals24]

/-- The present ones among eight values. -/
def pick8 (a1 a2 a3 a4 a5 a6 a7 a8 : Bool) (v1 v2 v3 v4 v5 v6 v7 v8 : UInt32) : List UInt32 :=
  (if a1 then [v1] else []) ++ ((if a2 then [v2] else []) ++ ((if a3 then [v3] else []) ++ ((if a4 then [v4] else []) ++
  ((if a5 then [v5] else []) ++ ((if a6 then [v6] else []) ++ ((if a7 then [v7] else []) ++ ((if a8 then [v8] else []) ++ [])))))))

theorem if_length (b : Bool) (v : UInt32) : (if b then [v] else ([] : List UInt32)).length = b.toNat := by cases b <;> rfl

theorem pick8_length (a1 a2 a3 a4 a5 a6 a7 a8 : Bool) (v1 v2 v3 v4 v5 v6 v7 v8 : UInt32) :
    (pick8 a1 a2 a3 a4 a5 a6 a7 a8 v1 v2 v3 v4 v5 v6 v7 v8).length =
      a1.toNat + a2.toNat + a3.toNat + a4.toNat + a5.toNat + a6.toNat + a7.toNat + a8.toNat := by
  simp only [pick8, List.length_append, if_length, List.length_nil]; omega

theorem pick8_values (a1 a2 a3 a4 a5 a6 a7 a8 : Bool) (v1 v2 v3 v4 v5 v6 v7 v8 : UInt32) :
    [(bit a1, v1), (bit a2, v2), (bit a3, v3), (bit a4, v4), (bit a5, v5), (bit a6, v6), (bit a7, v7), (bit a8, v8)].filterMap
      (fun x => if x.1 = go!"1" then some (low24 x.2) else none) =
    (pick8 a1 a2 a3 a4 a5 a6 a7 a8 v1 v2 v3 v4 v5 v6 v7 v8).map low24 := by
  have h : ∀ (a : Bool) (v : UInt32) (l : List (Bytes × UInt32)),
      ((bit a, v) :: l).filterMap (fun x => if x.1 = go!"1" then some (low24 x.2) else none) =
      (if a then [v] else ([] : List UInt32)).map low24 ++ l.filterMap (fun x => if x.1 = go!"1" then some (low24 x.2) else none) := by
    intro a v l
    cases a <;> simp [bit]
  simp only [h, pick8, List.map_append, List.filterMap_nil, List.map_nil]

theorem count_bit (a : Bool) (l : List Bytes) : (bit a :: l).count (go!"1") = a.toNat + l.count (go!"1") := by
  cases a <;> simp [bit]; omega

theorem low24_getD (vs : List UInt32) (n : Nat) : low24 (vs.getD n 0) = (vs.map low24).getD n 0 := by
  simp only [List.getD_eq_getElem?_getD, List.getElem?_map]
  cases vs[n]? <;> rfl

/-- What decoding an encoded record of sensors gives, for all presence flags. -/
theorem adSens_back (d d0 : SrAdSensorsData) (h : d.FlagsWF) :
    ∃ b, d.encode = .ok b ∧ SrAdSensorsData.decode d0 b = .ok (d.readBack d0) := by
  obtain ⟨di1, di2, di3, di4, di5, di6, di7, di8, dout, as1, as2, as3, as4, as5, as6, as7, as8,
    ad1, ad2, ad3, ad4, ad5, ad6, ad7, ad8, an1, an2, an3, an4, an5, an6, an7, an8⟩ := d
  obtain ⟨h1, h2, h3, h4, h5, h6, h7, h8, g1, g2, g3, g4, g5, g6, g7, g8⟩ := h
  simp only at *
  obtain ⟨f1, rfl⟩ := isBit_iff.mp h1
  obtain ⟨f2, rfl⟩ := isBit_iff.mp h2
  obtain ⟨f3, rfl⟩ := isBit_iff.mp h3
  obtain ⟨f4, rfl⟩ := isBit_iff.mp h4
  obtain ⟨f5, rfl⟩ := isBit_iff.mp h5
  obtain ⟨f6, rfl⟩ := isBit_iff.mp h6
  obtain ⟨f7, rfl⟩ := isBit_iff.mp h7
  obtain ⟨f8, rfl⟩ := isBit_iff.mp h8
  obtain ⟨a1, rfl⟩ := isBit_iff.mp g1
  obtain ⟨a2, rfl⟩ := isBit_iff.mp g2
  obtain ⟨a3, rfl⟩ := isBit_iff.mp g3
  obtain ⟨a4, rfl⟩ := isBit_iff.mp g4
  obtain ⟨a5, rfl⟩ := isBit_iff.mp g5
  obtain ⟨a6, rfl⟩ := isBit_iff.mp g6
  obtain ⟨a7, rfl⟩ := isBit_iff.mp g7
  obtain ⟨a8, rfl⟩ := isBit_iff.mp g8
  have hp1 := parseFlags_bits f8 f7 f6 f5 f4 f3 f2 f1
  have hp2 := parseFlags_bits a1 a2 a3 a4 a5 a6 a7 a8
  have hv : optBytes (bit a1) (put24 an1) ++ (optBytes (bit a2) (put24 an2) ++
      (optBytes (bit a3) (put24 an3) ++ (optBytes (bit a4) (put24 an4) ++
      (optBytes (bit a5) (put24 an5) ++ (optBytes (bit a6) (put24 an6) ++
      (optBytes (bit a7) (put24 an7) ++ optBytes (bit a8) (put24 an8))))))) =
      vals24 ((pick8 a1 a2 a3 a4 a5 a6 a7 a8 an1 an2 an3 an4 an5 an6 an7 an8).drop 0) := by
    have : optBytes (bit a8) (put24 an8) = optBytes (bit a8) (put24 an8) ++ vals24 [] := by simp [vals24]
    rw [this]
    simp only [vals24_opt, List.drop_zero, pick8]
  have hval := pick8_values a1 a2 a3 a4 a5 a6 a7 a8 an1 an2 an3 an4 an5 an6 an7 an8
  have hl := pick8_length a1 a2 a3 a4 a5 a6 a7 a8 an1 an2 an3 an4 an5 an6 an7 an8
  generalize pick8 a1 a2 a3 a4 a5 a6 a7 a8 an1 an2 an3 an4 an5 an6 an7 an8 = vs at hv hval hl
  refine ⟨mk8 f8 f7 f6 f5 f4 f3 f2 f1 :: dout :: mk8 a1 a2 a3 a4 a5 a6 a7 a8 ::
      (optBytes (bit f1) [ad1] ++ (optBytes (bit f2) [ad2] ++ (optBytes (bit f3) [ad3] ++
      (optBytes (bit f4) [ad4] ++ (optBytes (bit f5) [ad5] ++ (optBytes (bit f6) [ad6] ++
      (optBytes (bit f7) [ad7] ++ (optBytes (bit f8) [ad8] ++ vals24 (vs.drop 0))))))))), ?_, ?_⟩
  · simp only [SrAdSensorsData.encode, List.append_assoc, hp1, hp2, ok_bind, pure_eq_ok,
      List.cons_append, List.nil_append, hv]
  · have lt : ∀ (g : Bool) (n : Nat), n + g.toNat ≤ vs.length → g = true → n < vs.length := by
      rintro g n h rfl
      simp at h; omega
    obtain ⟨t1, l1, e1⟩ := optU24_vals a8 vs 0 d0.ans1 (tmp := zeros 3) rfl (lt _ _ (by omega))
    obtain ⟨t2, l2, e2⟩ := optU24_vals a7 vs (0 + a8.toNat) d0.ans2 l1 (lt _ _ (by omega))
    obtain ⟨t3, l3, e3⟩ := optU24_vals a6 vs (0 + a8.toNat + a7.toNat) d0.ans3 l2 (lt _ _ (by omega))
    obtain ⟨t4, l4, e4⟩ := optU24_vals a5 vs (0 + a8.toNat + a7.toNat + a6.toNat) d0.ans4 l3 (lt _ _ (by omega))
    obtain ⟨t5, l5, e5⟩ := optU24_vals a4 vs (0 + a8.toNat + a7.toNat + a6.toNat + a5.toNat) d0.ans5 l4 (lt _ _ (by omega))
    obtain ⟨t6, l6, e6⟩ := optU24_vals a3 vs (0 + a8.toNat + a7.toNat + a6.toNat + a5.toNat + a4.toNat) d0.ans6 l5 (lt _ _ (by omega))
    obtain ⟨t7, l7, e7⟩ := optU24_vals a2 vs (0 + a8.toNat + a7.toNat + a6.toNat + a5.toNat + a4.toNat + a3.toNat) d0.ans7 l6
      (lt _ _ (by omega))
    obtain ⟨t8, l8, e8⟩ := optU24_vals a1 vs (0 + a8.toNat + a7.toNat + a6.toNat + a5.toNat + a4.toNat + a3.toNat + a2.toNat) d0.ans8 l7
      (lt _ _ (by omega))
    simp only [SrAdSensorsData.decode, readByte_cons, ok_bind, sub01, sub12, sub23, sub34, sub45, sub56, sub67, sub78,
      optU8_bit, e1, e2, e3, e4, e5, e6, e7, e8, pure_eq_ok]
    simp only [SrAdSensorsData.readBack, SrAdSensorsData.onto, SrAdSensorsData.analogAfter, SrAdSensorsData.analogValues,
      present_bit, hval, low24_getD, count_bit, List.count_nil, Nat.zero_add, Nat.add_zero, Nat.add_assoc]

/-- If the flags are their own mirror image, everything comes back. -/
theorem readBack_mirror (d d0 : SrAdSensorsData) (h : d.FlagsWF) (hm : d.Mirror) : d.readBack d0 = d.onto d0 := by
  obtain ⟨di1, di2, di3, di4, di5, di6, di7, di8, dout, as1, as2, as3, as4, as5, as6, as7, as8,
    ad1, ad2, ad3, ad4, ad5, ad6, ad7, ad8, an1, an2, an3, an4, an5, an6, an7, an8⟩ := d
  obtain ⟨_, _, _, _, _, _, _, _, g1, g2, g3, g4, g5, g6, g7, g8⟩ := h
  obtain ⟨m1, m2, m3, m4⟩ := hm
  simp only at *
  subst m1 m2 m3 m4
  obtain ⟨a1, rfl⟩ := isBit_iff.mp g1
  obtain ⟨a2, rfl⟩ := isBit_iff.mp g2
  obtain ⟨a3, rfl⟩ := isBit_iff.mp g3
  obtain ⟨a4, rfl⟩ := isBit_iff.mp g4
  have hval := pick8_values a1 a2 a3 a4 a4 a3 a2 a1 an1 an2 an3 an4 an5 an6 an7 an8
  simp only [SrAdSensorsData.readBack, SrAdSensorsData.onto, SrAdSensorsData.analogAfter, SrAdSensorsData.analogValues,
    present_bit, hval, count_bit, List.count_nil]
  clear hval
  cases a1 <;> cases a2 <;> cases a3 <;> cases a4 <;> rfl

theorem adSens_rt (d d0 : SrAdSensorsData) (h : d.FlagsWF) (hm : d.Mirror) :
    ∃ b, d.encode = .ok b ∧ SrAdSensorsData.decode d0 b = .ok (d.onto d0) := by
  rw [← readBack_mirror d d0 h hm]
  exact adSens_back d d0 h

/-- What decoding an encoded counters record gives: the second counter overwrites the first. -/
theorem counters_rt (d d0 : SrCountersData) (h : d.FlagsWF) :
    ∃ b, d.encode = .ok b ∧ SrCountersData.decode d0 b = .ok (d.readBack d0) := by
  unfold SrCountersData.readBack
  obtain ⟨as1, as2, as3, as4, as5, as6, as7, as8, an1, an2, an3, an4, an5, an6, an7, an8⟩ := d
  obtain ⟨g1, g2, g3, g4, g5, g6, g7, g8⟩ := h
  obtain ⟨a1, rfl⟩ := isBit_iff.mp g1
  obtain ⟨a2, rfl⟩ := isBit_iff.mp g2
  obtain ⟨a3, rfl⟩ := isBit_iff.mp g3
  obtain ⟨a4, rfl⟩ := isBit_iff.mp g4
  obtain ⟨a5, rfl⟩ := isBit_iff.mp g5
  obtain ⟨a6, rfl⟩ := isBit_iff.mp g6
  obtain ⟨a7, rfl⟩ := isBit_iff.mp g7
  obtain ⟨a8, rfl⟩ := isBit_iff.mp g8
  have hp1 := parseFlags_bits a8 a7 a6 a5 a4 a3 a2 a1
  refine ⟨mk8 a8 a7 a6 a5 a4 a3 a2 a1 ::
      ((optBytes (bit a1) (put24 an1) ++ (optBytes (bit a2) (put24 an2) ++
      (optBytes (bit a3) (put24 an3) ++ (optBytes (bit a4) (put24 an4) ++
      (optBytes (bit a5) (put24 an5) ++ (optBytes (bit a6) (put24 an6) ++
      (optBytes (bit a7) (put24 an7) ++ (optBytes (bit a8) (put24 an8) ++ []))))))))), ?_, ?_⟩
  · simp only [SrCountersData.encode, List.append_assoc, hp1, ok_bind, pure_eq_ok,
      List.cons_append, List.nil_append, List.append_nil]
  · obtain ⟨t1, l1, e1⟩ := optU24_bit a1 an1 d0.cn1 (tmp := zeros 3) ((optBytes (bit a2) (put24 an2) ++
      (optBytes (bit a3) (put24 an3) ++ (optBytes (bit a4) (put24 an4) ++
      (optBytes (bit a5) (put24 an5) ++ (optBytes (bit a6) (put24 an6) ++
      (optBytes (bit a7) (put24 an7) ++ (optBytes (bit a8) (put24 an8) ++ [])))))))) rfl
    obtain ⟨t2, l2, e2⟩ := optU24_bit a2 an2 (if a1 then UInt32.ofNat (an1.toNat % 16777216) else d0.cn1) ((optBytes (bit a3) (put24 an3) ++ (optBytes (bit a4) (put24 an4) ++
      (optBytes (bit a5) (put24 an5) ++ (optBytes (bit a6) (put24 an6) ++
      (optBytes (bit a7) (put24 an7) ++ (optBytes (bit a8) (put24 an8) ++ []))))))) l1
    obtain ⟨t3, l3, e3⟩ := optU24_bit a3 an3 d0.cn3 ((optBytes (bit a4) (put24 an4) ++
      (optBytes (bit a5) (put24 an5) ++ (optBytes (bit a6) (put24 an6) ++
      (optBytes (bit a7) (put24 an7) ++ (optBytes (bit a8) (put24 an8) ++ [])))))) l2
    obtain ⟨t4, l4, e4⟩ := optU24_bit a4 an4 d0.cn4 (
      (optBytes (bit a5) (put24 an5) ++ (optBytes (bit a6) (put24 an6) ++
      (optBytes (bit a7) (put24 an7) ++ (optBytes (bit a8) (put24 an8) ++ []))))) l3
    obtain ⟨t5, l5, e5⟩ := optU24_bit a5 an5 d0.cn5 (
      (optBytes (bit a6) (put24 an6) ++
      (optBytes (bit a7) (put24 an7) ++ (optBytes (bit a8) (put24 an8) ++ [])))) l4
    obtain ⟨t6, l6, e6⟩ := optU24_bit a6 an6 d0.cn6 (
      (optBytes (bit a7) (put24 an7) ++ (optBytes (bit a8) (put24 an8) ++ []))) l5
    obtain ⟨t7, l7, e7⟩ := optU24_bit a7 an7 d0.cn7 (optBytes (bit a8) (put24 an8) ++ []) l6
    obtain ⟨t8, l8, e8⟩ := optU24_bit a8 an8 d0.cn8 [] l7
    simp only [SrCountersData.decode, readByte_cons, ok_bind, sub01, sub12, sub23, sub34, sub45, sub56, sub67, sub78,
      e1, e2, e3, e4, e5, e6, e7, e8, pure_eq_ok, SrCountersData.onto, present_bit, low24_eq]

theorem term_rt (d d0 : SrTermIdentity) (h : d.WF) :
    ∃ b, d.encode = .ok b ∧ SrTermIdentity.decode d0 b = .ok (d.onto d0) := by
  obtain ⟨tid, mne, bse, nide, ssra, lngce, imsie, imeie, hdide, hdid, imei, imsi, lngc, nid, bs, msisdn⟩ := d
  obtain ⟨g1, g2, g3, g4, g5, g6, g7, g8, w1, w2, w3, w4, w5⟩ := h
  obtain ⟨m, rfl⟩ := isBit_iff.mp g1
  obtain ⟨b, rfl⟩ := isBit_iff.mp g2
  obtain ⟨n, rfl⟩ := isBit_iff.mp g3
  obtain ⟨s, rfl⟩ := isBit_iff.mp g4
  obtain ⟨l, rfl⟩ := isBit_iff.mp g5
  obtain ⟨si, rfl⟩ := isBit_iff.mp g6
  obtain ⟨ei, rfl⟩ := isBit_iff.mp g7
  obtain ⟨hd, rfl⟩ := isBit_iff.mp g8
  simp only [bit_eq_one] at w1 w2 w3 w4 w5
  have hp := parseUint2_bits m b n s l si ei hd
  refine ⟨put32 tid ++ (mk8 m b n s l si ei hd :: (optBytes (bit hd) (put16 hdid) ++
    (optBytes (bit ei) imei ++ (optBytes (bit si) imsi ++ (optBytes (bit l) lngc ++
    (optBytes (bit n) nid ++ (optBytes (bit b) (put16 bs) ++ (optBytes (bit m) msisdn ++ [])))))))), ?_, ?_⟩
  · simp only [SrTermIdentity.encode, List.append_assoc, hp, UInt8.ofNat_toNat, List.cons_append,
      List.nil_append, List.append_nil]
  · obtain ⟨t1, l1, e1⟩ := optU16_bit hd hdid d0.homeDispatcherIdentifier (tmp := zeros 2) (
      (optBytes (bit ei) imei ++ (optBytes (bit si) imsi ++ (optBytes (bit l) lngc ++
      (optBytes (bit n) nid ++ (optBytes (bit b) (put16 bs) ++ (optBytes (bit m) msisdn ++ []))))))) rfl
    obtain ⟨t2, l2, e2⟩ := optU16_bit b bs d0.bufferSize (tmp := zeros 2) (optBytes (bit m) msisdn ++ []) rfl
    have f1 := fun r => optN_bit ei 15 imei d0.imei r w1 (by decide)
    have f2 := fun r => optN_bit si 16 imsi d0.imsi r w2 (by decide)
    have f3 := fun r => optN_bit l 3 lngc d0.languageCode r w3 (by decide)
    have f4 := fun r => optN_bit n 3 nid d0.networkIdentifier r w4 (by decide)
    have f5 := fun r => optN_bit m 15 msisdn d0.mobileNumber r w5 (by decide)
    have e0 := fun r => readerRead_put32 (buf := zeros 4) rfl tid r
    simp only [SrTermIdentity.decode, e0, ok_bind, readByte_cons, sub01, sub12, sub23, sub34, sub45, sub56, sub67, sub78,
      e1, e2, f1, f2, f3, f4, f5, le32_put32, pure_eq_ok, SrTermIdentity.onto, present_bit]

theorem auth_rt (d d0 : SrAuthInfo) (h : d.WF) :
    ∃ b, d.encode = .ok b ∧ SrAuthInfo.decode d0 b =
      .ok { d with serverSequence := if d.serverSequence = [] then d0.serverSequence else d.serverSequence } := by
  obtain ⟨u, p, s⟩ := d
  obtain ⟨h1, h2, h3⟩ := h
  refine ⟨_, rfl, ?_⟩
  by_cases hs : s = []
  · have e1 := readCString_append u (p ++ [0]) h1
    have e2 := readCString_append p [] h2
    simp [SrAuthInfo.decode, hs, e1, e2]
  · have e1 := readCString_append u (p ++ (0 :: (s ++ [0]))) h1
    have e2 := readCString_append p (s ++ [0]) h2
    have e3 := readCString_append s [] h3
    simp [SrAuthInfo.decode, hs, e1, e2, e3]

theorem module_rt (d d0 : SrModuleData) (h : d.WF) :
    ∃ b, d.encode = .ok b ∧ SrModuleData.decode d0 b = .ok d := by
  obtain ⟨mt, vid, fwv, swv, md, st, srn, dscr⟩ := d
  obtain ⟨h1, h2⟩ := h
  refine ⟨_, rfl, ?_⟩
  have e1 := fun r => readerRead_put32 (buf := zeros 4) rfl vid r
  have e2 := fun v r => readerRead_put16 (buf := zeros 2) rfl v r
  have e3 := readCString_append srn (dscr ++ [0]) h1
  have e4 := readCString_append dscr [] h2
  simp only [SrModuleData.decode, List.append_assoc, List.cons_append, List.nil_append, readByte_cons, ok_bind, e1, e2, e3, e4,
    le32_put32, le16_put16, pure_eq_ok]

theorem disp_rt (d d0 : SrDispatcherIdentity) :
    ∃ b, d.encode = .ok b ∧ SrDispatcherIdentity.decode d0 b = .ok d := by
  refine ⟨_, rfl, ?_⟩
  have e := bufferRead_full (buf := zeros 4) (x := put32 d.dispatcherID) (r := d.description) rfl (by simp [put32])
  simp [SrDispatcherIdentity.decode, e]

end Egts
