import Verif.Proofs.SubLemmas
import Verif.Proofs.Float

/-! # Position data -/

namespace Egts

theorem bitChar_cases (m i : Nat) : (bitChar m i = 49 ∧ m / 2 ^ i % 2 = 1) ∨ (bitChar m i = 48 ∧ m / 2 ^ i % 2 = 0) := by
  unfold bitChar
  split
  · exact .inl ⟨rfl, by assumption⟩
  · exact .inr ⟨rfl, by omega⟩

theorem parseLoop_range (max m : Nat) : ∀ k n : Nat, n * 2 ^ k + 2 ^ k ≤ max + 1 →
    parseLoop max n ((List.range k).reverse.map (bitChar m)) = (n * 2 ^ k + m % 2 ^ k, none)
  | 0, n, _ => by simp [parseLoop, Nat.mod_one]
  | k + 1, n, h => by
    have hk : 0 < 2 ^ k := Nat.two_pow_pos k
    have hp : 2 ^ (k + 1) = 2 ^ k * 2 := Nat.pow_succ ..
    have hm : m % 2 ^ (k + 1) = m % 2 ^ k + 2 ^ k * (m / 2 ^ k % 2) := Nat.mod_pow_succ
    have e1 : n * 2 ^ (k + 1) = 2 * n * 2 ^ k := by rw [hp]; ring
    rw [List.range_succ, List.reverse_append]
    simp only [List.reverse_cons, List.reverse_nil, List.nil_append, List.cons_append, List.map_cons]
    rw [e1, hp] at h
    rcases bitChar_cases m k with ⟨hb, hv⟩ | ⟨hb, hv⟩
    · have h2 : (2 * n + 1) * 2 ^ k + 2 ^ k ≤ max + 1 := by nlinarith
      have h3 : ¬ 2 * n + 1 > max := by nlinarith
      simp only [parseLoop, hb]
      rw [if_neg (by decide), if_pos trivial, if_neg h3, parseLoop_range max m k _ h2, hm, hv, e1]
      congr 1; ring
    · have h2 : (2 * n) * 2 ^ k + 2 ^ k ≤ max + 1 := by nlinarith
      have h3 : ¬ 2 * n > max := by nlinarith
      simp only [parseLoop, hb]
      rw [if_pos trivial, if_neg h3, parseLoop_range max m k _ h2, hm, hv, e1]
      simp

/-- The speed bits of the speed word. -/
theorem parse_speed (w : UInt16) :
    parseUint2 16 (substr (fmt16 w) 2 16) = (w.toNat % 16384, none) := by
  have h : substr (fmt16 w) 2 16 = (List.range 14).reverse.map (bitChar w.toNat) := rfl
  have h2 := parseLoop_range (2 ^ 16 - 1) w.toNat 14 0 (by norm_num)
  rw [parseUint2, if_neg (by rw [h]; simp [List.range_succ]), h, h2]
  simp

theorem speedWord : ∀ s : Fin 1639, ∀ d a : Fin 2,
    ((posSpeedWord (UInt16.ofNat s.val) (UInt8.ofNat d.val) (UInt8.ofNat a.val) >>> 15) &&& 1).toUInt8 = UInt8.ofNat d.val ∧
    ((posSpeedWord (UInt16.ofNat s.val) (UInt8.ofNat d.val) (UInt8.ofNat a.val) >>> 14) &&& 1).toUInt8 = UInt8.ofNat a.val ∧
    (posSpeedWord (UInt16.ofNat s.val) (UInt8.ofNat d.val) (UInt8.ofNat a.val)).toNat % 16384 = 10 * s.val := by
  decide +kernel

theorem dirByte_back : ∀ c : Fin 256, ∀ d : Fin 2,
    posDirByte (UInt8.ofNat c.val) (UInt8.ofNat d.val) ||| (UInt8.ofNat d.val <<< 7) =
      UInt8.ofNat c.val ||| (UInt8.ofNat d.val <<< 7) := by
  decide +kernel

theorem dirBack : ∀ c : Fin 256, ∀ d : Fin 2, (d = 1 → 128 ≤ c.val) →
    UInt8.ofNat c.val ||| (UInt8.ofNat d.val <<< 7) = UInt8.ofNat c.val := by
  decide +kernel

theorem directionBack_eq (d : SrPosData) (h : d.directionHighestBit < 2) (hd : d.directionHighestBit = 1 → 128 ≤ d.direction) :
    d.directionBack = d.direction := by
  have h' : d.directionHighestBit.toNat < 2 := h
  have := dirBack ⟨d.direction.toNat, UInt8.toNat_lt _⟩ ⟨d.directionHighestBit.toNat, h'⟩ (by
    intro h
    have h1 : d.directionHighestBit.toNat = 1 := by simpa using congrArg Fin.val h
    exact hd (UInt8.toNat_inj.mp (by simpa using h1)))
  simp only [UInt8.ofNat_toNat] at this
  exact this

theorem readAlt (v : UInt32) : readerRead (zeros 4) (put24 v) = .ok (put24 v ++ [0], []) := by
  simp [readerRead, put24, put32, zeros]

/-- What decoding an encoded position gives. -/
def SrPosData.onto (env : Env) (d d0 : SrPosData) : SrPosData :=
  { d with
    latitude := decLat (encLat env d.latitude)
    longitude := decLon (encLon env d.longitude)
    direction := d.directionBack
    altitude := present d.alte d.altitude d0.altitude
    sourceData := d0.sourceData }

theorem pos_rt (env : Env) (d d0 : SrPosData) (h : d.WF) :
    ∃ b, d.encode env = .ok b ∧ SrPosData.decode d0 b = .ok (d.onto env d0) := by
  obtain ⟨ntm, lat, lon, alte, lohs, lahs, mv, bb, cs, fix, vld, dirh, alts, speed, dir, odm, din, src, alt, srcd⟩ := d
  obtain ⟨g1, g2, g3, g4, g5, g6, g7, g8, ⟨s, hs, ht⟩, hd, ha, hsp, hodm, halt⟩ := h
  obtain ⟨a, rfl⟩ := isBit_iff.mp g1
  obtain ⟨lo, rfl⟩ := isBit_iff.mp g2
  obtain ⟨la, rfl⟩ := isBit_iff.mp g3
  obtain ⟨m, rfl⟩ := isBit_iff.mp g4
  obtain ⟨b, rfl⟩ := isBit_iff.mp g5
  obtain ⟨c, rfl⟩ := isBit_iff.mp g6
  obtain ⟨f, rfl⟩ := isBit_iff.mp g7
  obtain ⟨v, rfl⟩ := isBit_iff.mp g8
  simp only at ht hd ha hsp hodm halt
  subst ht
  simp only [bit_eq_one] at halt
  have hp := parseFlags_bits a lo la m b c f v
  have hd' : dirh.toNat < 2 := hd
  have ha' : alts.toNat < 2 := ha
  have hsp' : speed.toNat ≤ 1638 := hsp
  obtain ⟨w1, w2, w3⟩ := speedWord ⟨speed.toNat, by omega⟩ ⟨dirh.toNat, hd'⟩ ⟨alts.toNat, ha'⟩
  simp only [UInt16.ofNat_toNat, UInt8.ofNat_toNat] at w1 w2 w3
  have hdb := dirByte_back ⟨dir.toNat, UInt8.toNat_lt _⟩ ⟨dirh.toNat, hd'⟩
  simp only [UInt8.ofNat_toNat] at hdb
  refine ⟨put32 (UInt32.ofNat s) ++ (put32 (encLat env lat) ++ (put32 (encLon env lon) ++ (mk8 a lo la m b c f v ::
    (put16 (posSpeedWord speed dirh alts) ++ (posDirByte dir dirh :: (put24 odm ++ (din :: src :: optBytes (bit a) (put24 alt)))))))), ?_, ?_⟩
  · simp only [SrPosData.encode, List.append_assoc, hp, ok_bind, pure_eq_ok, encNavTime_rt env s hs, List.cons_append, List.nil_append]
  · have r4 := fun (buf : Bytes) (h : buf.length = 4) v r => readerRead_put32 h v r
    have t1 := fun v r => readerRead_put32 (buf := zeros 4) rfl v r
    have t2 := fun u v r => readerRead_put32 (buf := put32 u) rfl v r
    have t3 := fun v r => readerRead_put16 (buf := zeros 2) rfl v r
    have t4 := fun v r => readerRead_put24 (buf := zeros 3) rfl v r
    have hspd : UInt16.ofNat (10 * speed.toNat) / 10 = speed := by
      apply UInt16.toNat_inj.mp
      rw [UInt16.toNat_div, UInt16.toNat_ofNat']
      show 10 * speed.toNat % 65536 / 10 = _
      omega
    have htm : decTime (UInt32.ofNat s) = timeOffset + (s : Int) * 1000000000 := by
      unfold decTime
      rw [UInt32.toNat_ofNat', Nat.mod_eq_of_lt hs]
    simp only [SrPosData.decode, t1, t2, t3, t4, ok_bind, readByte_cons, le32_put32, le16_put16, w1, w2, parse_speed, w3, hspd, hdb,
      le32_put24_of_lt _ hodm, sub01, sub12, sub23, sub34, sub45, sub56, sub67, sub78, htm, pure_eq_ok, SrPosData.onto, SrPosData.directionBack, present_bit]
    cases a
    · simp
    · simp [optBytes, bit, readAlt, le32_put24_of_lt _ (halt rfl)]

end Egts
