import Verif.Spec.Fits
import Verif.Proofs.Saved
import Verif.Proofs.Record

/-! # Lemmas: values that do not fit -/

namespace Egts

theorem le32_three_lt {t : Bytes} (h : t.length = 3) : Is24 (le32 (t ++ [0])) := by
  match t, h with
  | [a, b, c], _ =>
    have := le32_put24
    unfold Is24
    have ha := a.toNat_lt
    have hb := b.toNat_lt
    have hc := c.toNat_lt
    simp [le32]
    omega

theorem readerRead_len {buf r t r' : Bytes} (h : readerRead buf r = .ok (t, r')) : t.length = buf.length := by
  unfold readerRead at h
  split at h
  · cases h
  · injection h with h
    injection h with h1 h2
    subst h1
    simp
    omega

theorem optU24_lt {f tmp r tmp' r' : Bytes} {old v : UInt32} (ho : Is24 old) (hl : tmp.length = 3) (h : optU24 f old tmp r = .ok (v, tmp', r')) :
    Is24 v ∧ tmp'.length = 3 := by
  unfold optU24 at h
  split at h
  · obtain ⟨⟨t, r1⟩, h1, h⟩ := bind_eq_ok.mp h
    injection h with h
    injection h with h2 h
    injection h with h3 h4
    subst h2 h3
    have := readerRead_len h1
    exact ⟨le32_three_lt (by omega), by omega⟩
  · injection h with h
    injection h with h2 h
    injection h with h3 h4
    subst h2 h3
    exact ⟨ho, hl⟩

theorem is24_zero : Is24 0 := by unfold Is24; decide

theorem counters_lt {b : Bytes} {d : SrCountersData} (h : SrCountersData.decode {} b = .ok d) :
    Is24 d.cn1 ∧ Is24 d.cn2 ∧ Is24 d.cn3 ∧ Is24 d.cn4 ∧ Is24 d.cn5 ∧ Is24 d.cn6 ∧ Is24 d.cn7 ∧ Is24 d.cn8 := by
  unfold SrCountersData.decode at h
  obtain ⟨⟨f, r⟩, _, h⟩ := bind_eq_ok.mp h
  obtain ⟨⟨v1, t1, r1⟩, h1, h⟩ := bind_eq_ok.mp h
  obtain ⟨⟨v2, t2, r2⟩, h2, h⟩ := bind_eq_ok.mp h
  obtain ⟨⟨v3, t3, r3⟩, h3, h⟩ := bind_eq_ok.mp h
  obtain ⟨⟨v4, t4, r4⟩, h4, h⟩ := bind_eq_ok.mp h
  obtain ⟨⟨v5, t5, r5⟩, h5, h⟩ := bind_eq_ok.mp h
  obtain ⟨⟨v6, t6, r6⟩, h6, h⟩ := bind_eq_ok.mp h
  obtain ⟨⟨v7, t7, r7⟩, h7, h⟩ := bind_eq_ok.mp h
  obtain ⟨⟨v8, t8, r8⟩, h8, h⟩ := bind_eq_ok.mp h
  injection h with h
  subst h
  obtain ⟨a1, l1⟩ := optU24_lt is24_zero rfl h1
  obtain ⟨a2, l2⟩ := optU24_lt a1 l1 h2
  obtain ⟨a3, l3⟩ := optU24_lt is24_zero l2 h3
  obtain ⟨a4, l4⟩ := optU24_lt is24_zero l3 h4
  obtain ⟨a5, l5⟩ := optU24_lt is24_zero l4 h5
  obtain ⟨a6, l6⟩ := optU24_lt is24_zero l5 h6
  obtain ⟨a7, l7⟩ := optU24_lt is24_zero l6 h7
  obtain ⟨a8, l8⟩ := optU24_lt is24_zero l7 h8
  exact ⟨a2, is24_zero, a3, a4, a5, a6, a7, a8⟩

theorem adSens_lt {b : Bytes} {d : SrAdSensorsData} (h : SrAdSensorsData.decode {} b = .ok d) :
    Is24 d.ans1 ∧ Is24 d.ans2 ∧ Is24 d.ans3 ∧ Is24 d.ans4 ∧ Is24 d.ans5 ∧ Is24 d.ans6 ∧ Is24 d.ans7 ∧ Is24 d.ans8 := by
  unfold SrAdSensorsData.decode at h
  iterate 11 obtain ⟨⟨_, _⟩, _, h⟩ := bind_eq_ok.mp h
  obtain ⟨⟨v1, t1, r1⟩, h1, h⟩ := bind_eq_ok.mp h
  obtain ⟨⟨v2, t2, r2⟩, h2, h⟩ := bind_eq_ok.mp h
  obtain ⟨⟨v3, t3, r3⟩, h3, h⟩ := bind_eq_ok.mp h
  obtain ⟨⟨v4, t4, r4⟩, h4, h⟩ := bind_eq_ok.mp h
  obtain ⟨⟨v5, t5, r5⟩, h5, h⟩ := bind_eq_ok.mp h
  obtain ⟨⟨v6, t6, r6⟩, h6, h⟩ := bind_eq_ok.mp h
  obtain ⟨⟨v7, t7, r7⟩, h7, h⟩ := bind_eq_ok.mp h
  obtain ⟨⟨v8, t8, r8⟩, h8, h⟩ := bind_eq_ok.mp h
  injection h with h
  subst h
  obtain ⟨a1, l1⟩ := optU24_lt is24_zero rfl h1
  obtain ⟨a2, l2⟩ := optU24_lt is24_zero l1 h2
  obtain ⟨a3, l3⟩ := optU24_lt is24_zero l2 h3
  obtain ⟨a4, l4⟩ := optU24_lt is24_zero l3 h4
  obtain ⟨a5, l5⟩ := optU24_lt is24_zero l4 h5
  obtain ⟨a6, l6⟩ := optU24_lt is24_zero l5 h6
  obtain ⟨a7, l7⟩ := optU24_lt is24_zero l6 h7
  obtain ⟨a8, l8⟩ := optU24_lt is24_zero l7 h8
  exact ⟨a1, a2, a3, a4, a5, a6, a7, a8⟩

theorem absCntr_lt {e : SrAbsCntrData} {b : Bytes} {d : SrAbsCntrData} (h : SrAbsCntrData.decode e b = .ok d) : Is24 d.counterValue := by
  unfold SrAbsCntrData.decode at h
  obtain ⟨⟨c, r⟩, _, h⟩ := bind_eq_ok.mp h
  obtain ⟨⟨t, r1⟩, h1, h⟩ := bind_eq_ok.mp h
  injection h with h
  subst h
  exact le32_three_lt (readerRead_len h1)

theorem absAn_lt {e : SrAbsAnSensData} {b : Bytes} {d : SrAbsAnSensData} (h : SrAbsAnSensData.decode e b = .ok d) : Is24 d.value := by
  unfold SrAbsAnSensData.decode at h
  split at h
  · cases h
  · injection h with h
    subst h
    unfold Is24
    have := (le32 b).toNat_lt
    simp only [UInt32.toNat_shiftRight]
    show (le32 b).toNat >>> 8 < 2 ^ 24
    rw [Nat.shiftRight_eq_div_pow]
    omega

theorem liquid_num : ∀ f : Fin 256, ∃ n : Fin 8, parseFlags (substr (fmt8 (UInt8.ofNat f.val)) 5 8) = .ok (UInt8.ofNat n.val) := by
  decide +kernel

theorem liquid_lt {e : SrLiquidLevelSensor} {b : Bytes} {d : SrLiquidLevelSensor} (h : SrLiquidLevelSensor.decode e b = .ok d) :
    d.sensorNumber.toNat < 8 := by
  unfold SrLiquidLevelSensor.decode at h
  obtain ⟨⟨fl, r1⟩, _, h⟩ := bind_eq_ok.mp h
  obtain ⟨num, hn, h⟩ := bind_eq_ok.mp h
  obtain ⟨⟨t2, r2⟩, _, h⟩ := bind_eq_ok.mp h
  obtain ⟨⟨t4, r4⟩, _, h⟩ := bind_eq_ok.mp h
  injection h with h
  subst h
  obtain ⟨n, hf⟩ := liquid_num ⟨fl.toNat, fl.toNat_lt⟩
  simp only [UInt8.ofNat_toNat] at hf
  rw [hf] at hn
  injection hn with hn
  subst hn
  simp only [UInt8.toNat_ofNat']
  have := n.isLt
  omega

theorem readCString_text {b s r : Bytes} (h : readCString b = .ok (s, r)) : NoNul s := by
  induction b generalizing s r with
  | nil => simp [readCString] at h
  | cons c b ih =>
    unfold readCString at h
    split at h
    · injection h with h
      injection h with h _
      subst h
      simp [NoNul]
    · rename_i hc
      split at h
      · rename_i s' r' hs
        injection h with h
        injection h with h _
        subst h
        have := ih hs
        simp only [NoNul, List.mem_cons, not_or] at *
        exact ⟨fun h => hc h.symm, this⟩
      · cases h

theorem module_text {e : SrModuleData} {b : Bytes} {d : SrModuleData} (h : SrModuleData.decode e b = .ok d) :
    NoNul d.serialNumber ∧ NoNul d.description := by
  unfold SrModuleData.decode at h
  iterate 6 obtain ⟨⟨_, _⟩, _, h⟩ := bind_eq_ok.mp h
  obtain ⟨⟨s, r⟩, h1, h⟩ := bind_eq_ok.mp h
  obtain ⟨⟨t, r'⟩, h2, h⟩ := bind_eq_ok.mp h
  injection h with h
  subst h
  exact ⟨readCString_text h1, readCString_text h2⟩

theorem auth_text {b : Bytes} {d : SrAuthInfo} (h : SrAuthInfo.decode {} b = .ok d) :
    NoNul d.userName ∧ NoNul d.userPassword ∧ NoNul d.serverSequence := by
  unfold SrAuthInfo.decode at h
  obtain ⟨⟨s, r⟩, h1, h⟩ := bind_eq_ok.mp h
  obtain ⟨⟨t, r'⟩, h2, h⟩ := bind_eq_ok.mp h
  simp only at h
  split at h
  · obtain ⟨⟨u, r''⟩, h3, h⟩ := bind_eq_ok.mp h
    injection h with h
    subst h
    exact ⟨readCString_text h1, readCString_text h2, readCString_text h3⟩
  · injection h with h
    subst h
    exact ⟨readCString_text h1, readCString_text h2, by simp [NoNul]⟩

theorem optN_len {f r s r' old : Bytes} {n : Nat} (hf : f = one) (h : optN f n old r = .ok (s, r')) : s.length = n := by
  unfold optN at h
  rw [if_pos hf] at h
  have := readerRead_len h
  simpa [zeros] using this

/-- Whatever the texts of an identification: the flags are read back, and so the texts have the lengths of the protocol. -/
theorem term_len (d : SrTermIdentity) (h : (SubData.term d).FlagsOK) : ∃ b, d.encode = .ok b ∧ ∀ y, SrTermIdentity.decode {} b = .ok y →
    (d.imeie = go!"1" → y.imei.length = 15) ∧ (d.imsie = go!"1" → y.imsi.length = 16) ∧
    (d.lngce = go!"1" → y.languageCode.length = 3) ∧ (d.nide = go!"1" → y.networkIdentifier.length = 3) ∧
    (d.mne = go!"1" → y.mobileNumber.length = 15) := by
  obtain ⟨tid, mne, bse, nide, ssra, lngce, imsie, imeie, hdide, hdid, imei, imsi, lngc, nid, bs, msisdn⟩ := d
  obtain ⟨g1, g2, g3, g4, g5, g6, g7, g8⟩ := h
  obtain ⟨m, rfl⟩ := isBit_iff.mp g1
  obtain ⟨b, rfl⟩ := isBit_iff.mp g2
  obtain ⟨n, rfl⟩ := isBit_iff.mp g3
  obtain ⟨s, rfl⟩ := isBit_iff.mp g4
  obtain ⟨l, rfl⟩ := isBit_iff.mp g5
  obtain ⟨si, rfl⟩ := isBit_iff.mp g6
  obtain ⟨ei, rfl⟩ := isBit_iff.mp g7
  obtain ⟨hd, rfl⟩ := isBit_iff.mp g8
  have hp := parseUint2_bits m b n s l si ei hd
  refine ⟨put32 tid ++ (mk8 m b n s l si ei hd :: (optBytes (bit hd) (put16 hdid) ++
    (optBytes (bit ei) imei ++ (optBytes (bit si) imsi ++ (optBytes (bit l) lngc ++
    (optBytes (bit n) nid ++ (optBytes (bit b) (put16 bs) ++ (optBytes (bit m) msisdn ++ [])))))))), ?_, ?_⟩
  · simp only [SrTermIdentity.encode, List.append_assoc, hp, UInt8.ofNat_toNat, List.cons_append,
      List.nil_append, List.append_nil]
  · intro y hy
    unfold SrTermIdentity.decode at hy
    obtain ⟨⟨t4, r⟩, h1, hy⟩ := bind_eq_ok.mp hy
    rw [readerRead_put32 (buf := zeros 4) rfl] at h1
    injection h1 with h1
    injection h1 with h1 h2
    subst h2
    obtain ⟨⟨fl, r⟩, h1, hy⟩ := bind_eq_ok.mp hy
    rw [readByte_cons] at h1
    injection h1 with h1
    injection h1 with h1 h2
    subst h1
    simp only [sub01, sub12, sub23, sub34, sub45, sub56, sub67, sub78] at hy
    obtain ⟨⟨x1, _, _⟩, _, hy⟩ := bind_eq_ok.mp hy
    obtain ⟨⟨x2, _⟩, e1, hy⟩ := bind_eq_ok.mp hy
    obtain ⟨⟨x3, _⟩, e2, hy⟩ := bind_eq_ok.mp hy
    obtain ⟨⟨x4, _⟩, e3, hy⟩ := bind_eq_ok.mp hy
    obtain ⟨⟨x5, _⟩, e4, hy⟩ := bind_eq_ok.mp hy
    obtain ⟨⟨x6, _, _⟩, _, hy⟩ := bind_eq_ok.mp hy
    obtain ⟨⟨x7, _⟩, e5, hy⟩ := bind_eq_ok.mp hy
    injection hy with hy
    subst hy
    exact ⟨fun h => optN_len h e1, fun h => optN_len h e2, fun h => optN_len h e3, fun h => optN_len h e4, fun h => optN_len h e5⟩

/-- What decoding an encoded position gives, whatever its values. -/
def SrPosData.onto' (env : Env) (d d0 : SrPosData) : SrPosData :=
  { d with
    navigationTime := decTime (encNavTime env d.navigationTime)
    latitude := decLat (encLat env d.latitude)
    longitude := decLon (encLon env d.longitude)
    directionHighestBit := ((posSpeedWord d.speed d.directionHighestBit d.altitudeSign >>> 15) &&& 1).toUInt8
    altitudeSign := ((posSpeedWord d.speed d.directionHighestBit d.altitudeSign >>> 14) &&& 1).toUInt8
    speed := UInt16.ofNat ((posSpeedWord d.speed d.directionHighestBit d.altitudeSign).toNat % 16384) / 10
    direction := posDirByte d.direction d.directionHighestBit |||
      (((posSpeedWord d.speed d.directionHighestBit d.altitudeSign >>> 15) &&& 1).toUInt8 <<< 7)
    odometer := low24 d.odometer
    altitude := present d.alte (low24 d.altitude) d0.altitude
    sourceData := d0.sourceData }

theorem pos_any (env : Env) (d d0 : SrPosData) (h : (SubData.pos d).FlagsOK) :
    ∃ b, d.encode env = .ok b ∧ SrPosData.decode d0 b = .ok (d.onto' env d0) := by
  obtain ⟨ntm, lat, lon, alte, lohs, lahs, mv, bb, cs, fix, vld, dirh, alts, speed, dir, odm, din, src, alt, srcd⟩ := d
  obtain ⟨g1, g2, g3, g4, g5, g6, g7, g8⟩ := h
  obtain ⟨a, rfl⟩ := isBit_iff.mp g1
  obtain ⟨lo, rfl⟩ := isBit_iff.mp g2
  obtain ⟨la, rfl⟩ := isBit_iff.mp g3
  obtain ⟨m, rfl⟩ := isBit_iff.mp g4
  obtain ⟨b, rfl⟩ := isBit_iff.mp g5
  obtain ⟨c, rfl⟩ := isBit_iff.mp g6
  obtain ⟨f, rfl⟩ := isBit_iff.mp g7
  obtain ⟨v, rfl⟩ := isBit_iff.mp g8
  have hp := parseFlags_bits a lo la m b c f v
  refine ⟨put32 (encNavTime env ntm) ++ (put32 (encLat env lat) ++ (put32 (encLon env lon) ++ (mk8 a lo la m b c f v ::
    (put16 (posSpeedWord speed dirh alts) ++ (posDirByte dir dirh :: (put24 odm ++ (din :: src :: optBytes (bit a) (put24 alt)))))))), ?_, ?_⟩
  · simp only [SrPosData.encode, List.append_assoc, hp, ok_bind, pure_eq_ok, List.cons_append, List.nil_append]
  · have t1 := fun v r => readerRead_put32 (buf := zeros 4) rfl v r
    have t2 := fun u v r => readerRead_put32 (buf := put32 u) rfl v r
    have t3 := fun v r => readerRead_put16 (buf := zeros 2) rfl v r
    have t4 := fun v r => readerRead_put24 (buf := zeros 3) rfl v r
    simp only [SrPosData.decode, t1, t2, t3, t4, ok_bind, readByte_cons, le32_put32, le16_put16, parse_speed,
      le32_put24, sub01, sub12, sub23, sub34, sub45, sub56, sub67, sub78, pure_eq_ok, SrPosData.onto', present_bit, low24_eq]
    cases a
    · simp
    · simp [optBytes, bit, readAlt, le32_put24]

theorem bit_lt (w : UInt16) (k : UInt16) : ((w >>> k) &&& 1).toUInt8.toNat < 2 := by
  simp only [UInt16.toNat_toUInt8, UInt16.toNat_and]
  have : (UInt16.toNat 1) = 1 := rfl
  rw [this, Nat.and_one_is_mod]
  omega

theorem low24_lt (v : UInt32) : Is24 (low24 v) := by
  unfold Is24 low24
  rw [UInt32.toNat_ofNat']
  omega

theorem kept_fits_pos {env : Env} {d : SrPosData} (h : (SubData.pos d).Kept (.pos (d.onto' env {}))) : (SubData.pos d).Fits := by
  obtain ⟨h1, h2, h3, h4, h5, h6, h7, h8⟩ := h
  simp only [SrPosData.onto'] at h1 h2 h3 h4 h5 h6 h7 h8
  obtain ⟨u1, l1, _⟩ := decLat_range (encLat env d.latitude)
  obtain ⟨u2, l2, _⟩ := decLon_range (encLon env d.longitude)
  have q2 := abs_le.mp h2
  have q3 := abs_le.mp h3
  refine ⟨⟨(encNavTime env d.navigationTime).toNat, (encNavTime env d.navigationTime).toNat_lt, h1.symm⟩, ⟨?_, ?_⟩, ⟨?_, ?_⟩, ?_, ?_, ?_, ?_, ?_⟩
  · linarith [q2.1, q2.2]
  · linarith [q2.1, q2.2]
  · linarith [q3.1, q3.2]
  · linarith [q3.1, q3.2]
  · rw [← h4]; exact bit_lt _ _
  · rw [← h5]; exact bit_lt _ _
  · rw [← h6, UInt16.toNat_div, UInt16.toNat_ofNat']
    show _ % 65536 / 10 ≤ 1638
    omega
  · rw [← h7]; exact low24_lt _
  · intro ha
    rw [← h8 ha, ha]
    exact low24_lt _

/-- What is read under another type is of another kind. -/
theorem sub_cases {env : Env} {f : Bytes → Except Err SrResponse} {t : UInt8} {len : UInt16} {b : Bytes} {y : SubData}
    (h : subDecode env f t len b = .ok (some y)) :
    (∃ d, SrPosData.decode {} b = .ok d ∧ y = .pos d) ∨ (∃ d, SrTermIdentity.decode {} b = .ok d ∧ y = .term d) ∨
    (∃ d, SrModuleData.decode {} b = .ok d ∧ y = .module d) ∨ (∃ d, f b = .ok d ∧ y = .resp d) ∨
    (∃ d, SrResultCode.decode {} b = .ok d ∧ y = .result d) ∨ (∃ d, SrExtPosData.decode {} b = .ok d ∧ y = .extPos d) ∨
    (∃ d, SrAdSensorsData.decode {} b = .ok d ∧ y = .adSens d) ∨ (∃ d, SrStateData.decode {} b = .ok d ∧ y = .state d) ∨
    (∃ d, SrLiquidLevelSensor.decode {} b = .ok d ∧ y = .liquid d) ∨ (∃ d, SrAbsCntrData.decode {} b = .ok d ∧ y = .absCntr d) ∨
    (∃ d, SrAuthInfo.decode {} b = .ok d ∧ y = .auth d) ∨ (∃ d, SrCountersData.decode {} b = .ok d ∧ y = .counters d) ∨
    (∃ d, StorageRecord.decode {} b = .ok d ∧ y = .plus d) ∨ (∃ d, SrAbsAnSensData.decode {} b = .ok d ∧ y = .absAn d) ∨
    (∃ d, SrDispatcherIdentity.decode {} b = .ok d ∧ y = .disp d) := by
  unfold subDecode at h
  split at h
  case h_8 =>
    split at h
    · obtain ⟨d, h1, h⟩ := bind_eq_ok.mp h
      injection h with h
      injection h with h
      simp only [h1, ← h]; simp
    · cases h
  case h_17 => cases h
  all_goals
    obtain ⟨d, h1, h⟩ := bind_eq_ok.mp h
    injection h with h
    injection h with h
    simp only [h1, ← h]; simp

theorem liquid_flags : ∀ e v1 v0 r : Bool, ∀ n : Fin 256,
    (parseFlags (bit false ++ (bit e ++ (bit v1 ++ (bit v0 ++ (bit r ++ fmt3 (UInt8.ofNat n.val))))))).toOption.isSome =
      (decide (n.val < 8) || decide ((8 * e.toNat + 4 * v1.toNat + 2 * v0.toNat + r.toNat) * 2 ^ (Nat.log2 n.val + 1) + n.val < 256)) := by
  decide +kernel

theorem liquid_accepts (x y z w : Bool) (n : UInt8) (a : UInt16) (s : UInt32) :
    (∃ b, SrLiquidLevelSensor.encode ⟨bit x, bit y ++ bit z, bit w, n, a, s⟩ = .ok b) ↔
      n.toNat < 8 ∨ (8 * x.toNat + 4 * y.toNat + 2 * z.toNat + w.toNat) * 2 ^ (Nat.log2 n.toNat + 1) + n.toNat < 256 := by
  have hf := liquid_flags x y z w ⟨n.toNat, n.toNat_lt⟩
  simp only [UInt8.ofNat_toNat] at hf
  have e0 : (go!"0" : Bytes) = bit false := rfl
  simp only [SrLiquidLevelSensor.encode, e0, List.append_assoc]
  generalize parseFlags _ = q at hf ⊢
  rw [← Bool.decide_or] at hf
  cases q with
  | error e => simp [Except.toOption] at hf ⊢; omega
  | ok v => simp [Except.toOption] at hf ⊢; exact hf

/-- The encoders refuse nothing but flags, and numbers of level sensors that make too many of them. -/
theorem encode_accepts (env : Env) (d : SubData) (h : d.FlagsOK) (hl : ∀ s, d = .liquid s → s.sensorNumber.toNat < 16) :
    ∃ b, d.encode env = .ok b := by
  cases d with
  | pos d => obtain ⟨b, h, _⟩ := pos_any env d {} h; exact ⟨b, h⟩
  | extPos d => obtain ⟨b, h, _⟩ := extPos_rt d {} h; exact ⟨b, h⟩
  | adSens d => obtain ⟨b, h, _⟩ := adSens_back d {} h; exact ⟨b, h⟩
  | counters d => obtain ⟨b, h, _⟩ := counters_rt d {} h; exact ⟨b, h⟩
  | state d => obtain ⟨b, h, _⟩ := stateData_rt d {} h; exact ⟨b, h⟩
  | plus d =>
    obtain ⟨b, h1, h2⟩ := Proto.marshal_unmarshal h
    exact ⟨b, by simp [SubData.encode, StorageRecord.encode, h1]⟩
  | liquid d =>
    have hn := hl d rfl
    obtain ⟨e, v, r, n, a, s⟩ := d
    obtain ⟨g1, g2, g3⟩ := h
    obtain ⟨x, rfl⟩ := isBit_iff.mp g1
    obtain ⟨y, z, rfl⟩ := isBits2_iff.mp g2
    obtain ⟨w, rfl⟩ := isBit_iff.mp g3
    simp only at hn
    have h2 : n.toNat < 8 ∨ (8 * x.toNat + 4 * y.toNat + 2 * z.toNat + w.toNat) * 2 ^ (Nat.log2 n.toNat + 1) + n.toNat < 256 := by
      by_cases h8 : n.toNat < 8
      · exact .inl h8
      · right
        have hlog : Nat.log2 n.toNat = 3 := (Nat.log2_eq_iff (by omega)).mpr ⟨by omega, by omega⟩
        rw [hlog]
        have hx : x.toNat ≤ 1 := Bool.toNat_le x
        have hy : y.toNat ≤ 1 := Bool.toNat_le y
        have hz : z.toNat ≤ 1 := Bool.toNat_le z
        have hw : w.toNat ≤ 1 := Bool.toNat_le w
        omega
    exact (liquid_accepts x y z w n a s).mpr h2
  | _ => exact ⟨_, rfl⟩

theorem kept_fits {env : Env} {d y : SubData} {f : Bytes → Except Err SrResponse} {t : UInt8} {len : UInt16} {b : Bytes} (hf : d.FlagsOK)
    (he : d.encode env = .ok b) (hd : subDecode env f t len b = .ok (some y)) (hk : d.Kept y) : d.Fits := by
  have hc := sub_cases hd
  cases d with
  | resp d => trivial
  | result d => trivial
  | extPos d => trivial
  | state d => trivial
  | plus d => trivial
  | disp d => trivial
  | pos d =>
    obtain ⟨b', e1, e2⟩ := pos_any env d {} hf
    rw [show (SubData.pos d).encode env = d.encode env from rfl, e1] at he
    injection he with he
    subst he
    rcases hc with ⟨x, h, rfl⟩ | ⟨x, h, rfl⟩ | ⟨x, h, rfl⟩ | ⟨x, h, rfl⟩ | ⟨x, h, rfl⟩ | ⟨x, h, rfl⟩ | ⟨x, h, rfl⟩ | ⟨x, h, rfl⟩ |
      ⟨x, h, rfl⟩ | ⟨x, h, rfl⟩ | ⟨x, h, rfl⟩ | ⟨x, h, rfl⟩ | ⟨x, h, rfl⟩ | ⟨x, h, rfl⟩ | ⟨x, h, rfl⟩ <;> try exact hk.elim
    rw [e2] at h
    injection h with h
    subst h
    exact kept_fits_pos hk
  | term d =>
    obtain ⟨b', e1, e2⟩ := term_len d hf
    rw [show (SubData.term d).encode env = d.encode from rfl, e1] at he
    injection he with he
    subst he
    rcases hc with ⟨x, h, rfl⟩ | ⟨x, h, rfl⟩ | ⟨x, h, rfl⟩ | ⟨x, h, rfl⟩ | ⟨x, h, rfl⟩ | ⟨x, h, rfl⟩ | ⟨x, h, rfl⟩ | ⟨x, h, rfl⟩ |
      ⟨x, h, rfl⟩ | ⟨x, h, rfl⟩ | ⟨x, h, rfl⟩ | ⟨x, h, rfl⟩ | ⟨x, h, rfl⟩ | ⟨x, h, rfl⟩ | ⟨x, h, rfl⟩ <;> try exact hk.elim
    obtain ⟨a1, a2, a3, a4, a5⟩ := e2 x h
    obtain ⟨_, k1, k2, k3, k4, k5⟩ := hk
    exact ⟨fun q => k1 q ▸ a1 q, fun q => k2 q ▸ a2 q, fun q => k3 q ▸ a3 q, fun q => k4 q ▸ a4 q, fun q => k5 q ▸ a5 q⟩
  | module d =>
    rcases hc with ⟨x, h, rfl⟩ | ⟨x, h, rfl⟩ | ⟨x, h, rfl⟩ | ⟨x, h, rfl⟩ | ⟨x, h, rfl⟩ | ⟨x, h, rfl⟩ | ⟨x, h, rfl⟩ | ⟨x, h, rfl⟩ |
      ⟨x, h, rfl⟩ | ⟨x, h, rfl⟩ | ⟨x, h, rfl⟩ | ⟨x, h, rfl⟩ | ⟨x, h, rfl⟩ | ⟨x, h, rfl⟩ | ⟨x, h, rfl⟩ <;> try exact hk.elim
    obtain rfl : x = d := hk
    exact module_text h
  | auth d =>
    rcases hc with ⟨x, h, rfl⟩ | ⟨x, h, rfl⟩ | ⟨x, h, rfl⟩ | ⟨x, h, rfl⟩ | ⟨x, h, rfl⟩ | ⟨x, h, rfl⟩ | ⟨x, h, rfl⟩ | ⟨x, h, rfl⟩ |
      ⟨x, h, rfl⟩ | ⟨x, h, rfl⟩ | ⟨x, h, rfl⟩ | ⟨x, h, rfl⟩ | ⟨x, h, rfl⟩ | ⟨x, h, rfl⟩ | ⟨x, h, rfl⟩ <;> try exact hk.elim
    obtain rfl : x = d := hk
    exact auth_text h
  | liquid d =>
    rcases hc with ⟨x, h, rfl⟩ | ⟨x, h, rfl⟩ | ⟨x, h, rfl⟩ | ⟨x, h, rfl⟩ | ⟨x, h, rfl⟩ | ⟨x, h, rfl⟩ | ⟨x, h, rfl⟩ | ⟨x, h, rfl⟩ |
      ⟨x, h, rfl⟩ | ⟨x, h, rfl⟩ | ⟨x, h, rfl⟩ | ⟨x, h, rfl⟩ | ⟨x, h, rfl⟩ | ⟨x, h, rfl⟩ | ⟨x, h, rfl⟩ <;> try exact hk.elim
    obtain rfl : x = d := hk
    exact liquid_lt h
  | absCntr d =>
    rcases hc with ⟨x, h, rfl⟩ | ⟨x, h, rfl⟩ | ⟨x, h, rfl⟩ | ⟨x, h, rfl⟩ | ⟨x, h, rfl⟩ | ⟨x, h, rfl⟩ | ⟨x, h, rfl⟩ | ⟨x, h, rfl⟩ |
      ⟨x, h, rfl⟩ | ⟨x, h, rfl⟩ | ⟨x, h, rfl⟩ | ⟨x, h, rfl⟩ | ⟨x, h, rfl⟩ | ⟨x, h, rfl⟩ | ⟨x, h, rfl⟩ <;> try exact hk.elim
    obtain rfl : x = d := hk
    exact absCntr_lt h
  | absAn d =>
    rcases hc with ⟨x, h, rfl⟩ | ⟨x, h, rfl⟩ | ⟨x, h, rfl⟩ | ⟨x, h, rfl⟩ | ⟨x, h, rfl⟩ | ⟨x, h, rfl⟩ | ⟨x, h, rfl⟩ | ⟨x, h, rfl⟩ |
      ⟨x, h, rfl⟩ | ⟨x, h, rfl⟩ | ⟨x, h, rfl⟩ | ⟨x, h, rfl⟩ | ⟨x, h, rfl⟩ | ⟨x, h, rfl⟩ | ⟨x, h, rfl⟩ <;> try exact hk.elim
    obtain rfl : x = d := hk
    exact absAn_lt h
  | adSens d =>
    rcases hc with ⟨x, h, rfl⟩ | ⟨x, h, rfl⟩ | ⟨x, h, rfl⟩ | ⟨x, h, rfl⟩ | ⟨x, h, rfl⟩ | ⟨x, h, rfl⟩ | ⟨x, h, rfl⟩ | ⟨x, h, rfl⟩ |
      ⟨x, h, rfl⟩ | ⟨x, h, rfl⟩ | ⟨x, h, rfl⟩ | ⟨x, h, rfl⟩ | ⟨x, h, rfl⟩ | ⟨x, h, rfl⟩ | ⟨x, h, rfl⟩ <;> try exact hk.elim
    obtain ⟨a1, a2, a3, a4, a5, a6, a7, a8⟩ := adSens_lt h
    obtain ⟨k1, k2, k3, k4, k5, k6, k7, k8⟩ := hk
    exact ⟨fun q => k1 q ▸ a1, fun q => k2 q ▸ a2, fun q => k3 q ▸ a3, fun q => k4 q ▸ a4, fun q => k5 q ▸ a5, fun q => k6 q ▸ a6,
      fun q => k7 q ▸ a7, fun q => k8 q ▸ a8⟩
  | counters d =>
    rcases hc with ⟨x, h, rfl⟩ | ⟨x, h, rfl⟩ | ⟨x, h, rfl⟩ | ⟨x, h, rfl⟩ | ⟨x, h, rfl⟩ | ⟨x, h, rfl⟩ | ⟨x, h, rfl⟩ | ⟨x, h, rfl⟩ |
      ⟨x, h, rfl⟩ | ⟨x, h, rfl⟩ | ⟨x, h, rfl⟩ | ⟨x, h, rfl⟩ | ⟨x, h, rfl⟩ | ⟨x, h, rfl⟩ | ⟨x, h, rfl⟩ <;> try exact hk.elim
    obtain ⟨a1, a2, a3, a4, a5, a6, a7, a8⟩ := counters_lt h
    obtain ⟨k1, k2, k3, k4, k5, k6, k7, k8⟩ := hk
    exact ⟨fun q => k1 q ▸ a1, fun q => k2 q ▸ a2, fun q => k3 q ▸ a3, fun q => k4 q ▸ a4, fun q => k5 q ▸ a5, fun q => k6 q ▸ a6,
      fun q => k7 q ▸ a7, fun q => k8 q ▸ a8⟩

theorem fits_wf {env : Env} {d : SubData} (hf : d.FlagsOK) (h : d.Fits) (hg : d.OnGlobe) : d.WF env := by
  cases d with
  | pos d =>
    obtain ⟨g1, g2, g3, g4, g5, g6, g7, g8⟩ := hf
    obtain ⟨h1, _, _, h4, h5, h6, h7, h8⟩ := h
    exact ⟨⟨g1, g2, g3, g4, g5, g6, g7, g8, h1, h4, h5, h6, h7, h8⟩, hg⟩
  | term d =>
    obtain ⟨g1, g2, g3, g4, g5, g6, g7, g8⟩ := hf
    obtain ⟨h1, h2, h3, h4, h5⟩ := h
    exact ⟨g1, g2, g3, g4, g5, g6, g7, g8, h1, h2, h3, h4, h5⟩
  | module d => exact h
  | auth d => exact h
  | liquid d => exact ⟨hf.1, hf.2.1, hf.2.2, h⟩
  | absCntr d => exact h
  | absAn d => exact h
  | adSens d => exact hf
  | counters d => exact hf
  | extPos d => exact hf
  | state d => exact hf
  | plus d => exact hf
  | resp d => trivial
  | result d => trivial
  | disp d => trivial

theorem low24_is24 {v : UInt32} (h : Is24 v) : low24 v = v := low24_of_lt v h

theorem present_one {α : Type} {f : Bytes} (h : f = go!"1") (x y : α) : present f x y = x := by simp [present, h]

theorem same_kept {env : Env} {d y : SubData} (h : d.Fits) (hs : d.Same env y) : d.Kept y := by
  cases d <;> cases y <;> first | exact hs.elim | skip
  case pos.pos a b =>
    obtain ⟨h1, h2, _, _, h5⟩ := hs
    rw [h5]
    exact ⟨rfl, h1, h2, rfl, rfl, rfl, rfl, fun q => present_one q _ _⟩
  case term.term a b =>
    obtain rfl : b = a.onto {} := hs
    exact ⟨rfl, fun q => present_one q _ _, fun q => present_one q _ _, fun q => present_one q _ _, fun q => present_one q _ _, fun q => present_one q _ _⟩
  case adSens.adSens a b =>
    obtain rfl : b = a.onto {} := hs
    obtain ⟨h1, h2, h3, h4, h5, h6, h7, h8⟩ := h
    exact ⟨fun q => (present_one q _ _).trans (low24_is24 (h1 q)), fun q => (present_one q _ _).trans (low24_is24 (h2 q)),
      fun q => (present_one q _ _).trans (low24_is24 (h3 q)), fun q => (present_one q _ _).trans (low24_is24 (h4 q)),
      fun q => (present_one q _ _).trans (low24_is24 (h5 q)), fun q => (present_one q _ _).trans (low24_is24 (h6 q)),
      fun q => (present_one q _ _).trans (low24_is24 (h7 q)), fun q => (present_one q _ _).trans (low24_is24 (h8 q))⟩
  case counters.counters a b =>
    obtain rfl : b = a.onto {} := hs
    obtain ⟨h1, h2, h3, h4, h5, h6, h7, h8⟩ := h
    exact ⟨fun q => (present_one q _ _).trans (low24_is24 (h1 q)), fun q => (present_one q _ _).trans (low24_is24 (h2 q)),
      fun q => (present_one q _ _).trans (low24_is24 (h3 q)), fun q => (present_one q _ _).trans (low24_is24 (h4 q)),
      fun q => (present_one q _ _).trans (low24_is24 (h5 q)), fun q => (present_one q _ _).trans (low24_is24 (h6 q)),
      fun q => (present_one q _ _).trans (low24_is24 (h7 q)), fun q => (present_one q _ _).trans (low24_is24 (h8 q))⟩
  all_goals exact hs

end Egts
