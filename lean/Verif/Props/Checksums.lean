import Verif.Proofs.Crc
import Verif.Props.Packages

/-! # Checksums and error detection (C01-C04) -/

namespace Egts

open Polynomial

/-! ## C01, C02 -/

/-- The body checksum is the remainder of the body followed by 16 zero bits, the first 16 bits
inverted, modulo x¹⁶ + x¹² + x⁵ + 1. -/
theorem C01_crc16 (d : Bytes) :
    Crc.poly (Crc.bitsOf 16 (crc16 d).toNat) = Crc.poly (Crc.flip 16 (Crc.bits d ++ List.replicate 16 false)) %ₘ Crc.g16 :=
  Crc.crc16_rem d

/-- The header checksum is the remainder of the header followed by 8 zero bits, the first 8 bits
inverted, modulo x⁸ + x⁵ + x⁴ + 1. -/
theorem C02_crc8 (d : Bytes) :
    Crc.poly (Crc.bitsOf 8 (crc8 d).toNat) = Crc.poly (Crc.flip 8 (Crc.bits d ++ List.replicate 8 false)) %ₘ Crc.g8 :=
  Crc.crc8_rem d

/-- The check values of the two algorithms for the bytes "123456789". -/
example : crc16 [0x31, 0x32, 0x33, 0x34, 0x35, 0x36, 0x37, 0x38, 0x39] = 0x29B1 ∧
    crc8 [0x31, 0x32, 0x33, 0x34, 0x35, 0x36, 0x37, 0x38, 0x39] = 0xF7 := by decide +kernel

/-- A number is determined by the polynomial of its bits, so the two theorems above determine the
checksums. -/
theorem C01_C02_determined (w a b : Nat) (ha : a < 2 ^ w) (hb : b < 2 ^ w)
    (h : Crc.poly (Crc.bitsOf w a) = Crc.poly (Crc.bitsOf w b)) : a = b :=
  Crc.bitsOf_inj ha hb (Crc.poly_inj (by simp [Crc.bitsOf_length]) h)

theorem accepted_sum {env key} {c : Slice} (h : Frame.outcome env key c = .code 0) (hh : Frame.Honest c.data)
    (hl : Frame.hcsPos c.data + 1 + Frame.fdl c.data ≤ c.data.length) :
    Frame.sfrcs c.data = (crc16 ((Frame.rest c.data).take (Frame.fdl c.data))).toNat := by
  obtain ⟨_, _, _, _, _, _, _, _, h9, h10⟩ := outcome_ok h
  obtain ⟨h1, h2⟩ := hh
  have hbe : Frame.bodyEnd c.data = Frame.hcsPos c.data + 1 + Frame.fdl c.data := by
    unfold Frame.bodyEnd; rw [h1] at h2 ⊢; exact Nat.mod_eq_of_lt h2
  obtain ⟨b, sp⟩ := c
  simp only at *
  rw [h10, hbe, take_all hl, h1, List.drop_take]
  unfold Frame.rest
  rw [show Frame.hcsPos b + 1 + Frame.fdl b - (Frame.hcsPos b + 1) = Frame.fdl b by omega]

theorem accepted_head {env key} {c : Slice} (h : Frame.outcome env key c = .code 0) (hh : Frame.Honest c.data) :
    byteAt c.data (Frame.hcsPos c.data) = (crc8 (c.data.take (Frame.hcsPos c.data))).toNat := by
  obtain ⟨h0, _, h3, _⟩ := outcome_ok h
  have hend : Frame.headEnd c.data = Frame.hcsPos c.data := by unfold Frame.headEnd; rw [hh.1]; simp
  obtain ⟨b, sp⟩ := c
  simp only at *
  rw [h3, hend, take_all (by omega)]

/-- The two bytes that `Encode` puts after a body, low byte first, and those that `Decode` insists on. -/
theorem C01_frames (env : Env) (key : Option SecretKey) :
    (∀ (p p' : Package) (out body : Bytes), p.encode env key = (p', .ok out) → p.Body env key body → body.length < 2 ^ 16 → body ≠ [] →
      Crc.poly (Crc.bitsOf 16 (byteAt out (out.length - 2) + 256 * byteAt out (out.length - 1))) =
        Crc.poly (Crc.flip 16 (Crc.bits body ++ List.replicate 16 false)) %ₘ Crc.g16) ∧
    (∀ p q c, Package.decode env key p c = .ret q 0 none → Frame.Honest c.data → c.data.length = Frame.total c.data →
      Crc.poly (Crc.bitsOf 16 (byteAt c.data (c.data.length - 2) + 256 * byteAt c.data (c.data.length - 1))) =
        Crc.poly (Crc.flip 16 (Crc.bits (Frame.body c.data) ++ List.replicate 16 false)) %ₘ Crc.g16) := by
  constructor
  · intro p p' out body he hb hl hne
    obtain ⟨head, body', h1, _, _, h4⟩ := C15_exact env key p p' out he
    have : body' = body := by
      have a := (bodyBytes_iff env key _ body').mpr h1
      rw [(bodyBytes_iff env key _ _).mpr hb] at a
      injection a with a; exact a.symm
    subst this
    rw [Nat.mod_eq_of_lt (show body'.length < 65536 from hl), if_neg (fun h => hne (List.length_eq_zero_iff.mp h))] at h4
    have e : ∀ i, byteAt out (out.length - 2 + i) = byteAt (put16 (crc16 body')) i := by
      intro i
      rw [← byteAt_drop, h4]
      congr 1
      rw [← List.append_assoc, List.length_append, show (put16 (crc16 body')).length = 2 from rfl, Nat.add_sub_cancel, List.drop_left]
    have hlen : 2 ≤ out.length := by rw [h4]; simp [put16]; omega
    have e0 := e 0
    have e1 := e 1
    rw [show out.length - 2 + 1 = out.length - 1 by omega] at e1
    rw [show out.length - 2 + 0 = out.length - 2 by omega] at e0
    rw [e0, e1, ← C01_crc16]
    congr 2
    exact put16_ofNat_toNat _
  · intro p q c hd hh hl
    have h := (decode_frame env key p c).1
    rw [hd] at h
    have hs := accepted_sum h.symm hh (by unfold Frame.total at hl; omega)
    have hr : (Frame.rest c.data).length = Frame.fdl c.data + 2 := by
      unfold Frame.rest; rw [List.length_drop]; unfold Frame.total at hl; omega
    have hb : Frame.body c.data = (Frame.rest c.data).take (Frame.fdl c.data) := by
      unfold Frame.body
      rw [hr, show Frame.fdl c.data - (Frame.fdl c.data + 2) = 0 by omega]
      simp [zeros]
    rw [← hb] at hs
    have e : Frame.sfrcs c.data = byteAt c.data (c.data.length - 2) + 256 * byteAt c.data (c.data.length - 1) := by
      unfold Frame.sfrcs Frame.after Frame.rest
      rw [byteAt_drop, byteAt_drop, byteAt_drop, byteAt_drop, hl]
      rfl
    rw [← e, hs, C01_crc16]

/-- The last header byte that `Encode` writes and that `Decode` insists on. -/
theorem C02_frames (env : Env) (key : Option SecretKey) :
    (∀ (p p' : Package) (out : Bytes), p.encode env key = (p', .ok out) →
      let n := if p.route = go!"1" then 15 else 10
      Crc.poly (Crc.bitsOf 8 (byteAt out n)) = Crc.poly (Crc.flip 8 (Crc.bits (out.take n) ++ List.replicate 8 false)) %ₘ Crc.g8) ∧
    (∀ p q c, Package.decode env key p c = .ret q 0 none → Frame.Honest c.data →
      Crc.poly (Crc.bitsOf 8 (byteAt c.data (Frame.hcsPos c.data))) =
        Crc.poly (Crc.flip 8 (Crc.bits (c.data.take (Frame.hcsPos c.data)) ++ List.replicate 8 false)) %ₘ Crc.g8) := by
  constructor
  · intro p p' out he n
    obtain ⟨head, body, h1, h2, _, h4⟩ := C15_exact env key p p' out he
    have hn : n = head.length := h2.symm
    rw [hn, h4, ← C02_crc8]
    simp [byteAt]
  · intro p q c hd hh
    have h := (decode_frame env key p c).1
    rw [hd] at h
    rw [accepted_head h.symm hh, C02_crc8]

/-! ## C03 -/

/-- A frame that declares a header length of 1, so that neither checksum covers what it should. -/
def slyFrame (x : UInt8) : Bytes := [1, 0, 0, 1, 0, 3, 0, 5, 0, 0, 255, 216, 0, x, 0xBD, 0xDC]

def slyPackage (x : UInt8) : Package :=
  { respPackage with
    headerLength := 1
    headerCheckSum := 255
    servicesFrameData := some (.resp { responsePacketID := 216, processingResult := x })
    servicesFrameDataCheckSum := 0xDCBD }

set_option maxRecDepth 20000 in
/-- Full statement of C03 (not provable): the three theorems below without `Frame.Honest`. A frame with a
wrong header length is accepted with either of two bodies that differ in one bit. -/
theorem C03_false (env : Env) : ∃ b b' : Bytes, Crc.dist b b' = 1 ∧ b.take 13 = b'.take 13 ∧ b.length = Frame.total b ∧
    (∃ q, Package.decode env none {} ⟨b, []⟩ = .ret q 0 none) ∧ (∃ q, Package.decode env none {} ⟨b', []⟩ = .ret q 0 none) :=
  ⟨slyFrame 0, slyFrame 1, by decide +kernel, rfl, by decide +kernel,
    ⟨slyPackage 0, by with_unfolding_all rfl⟩, ⟨slyPackage 1, by with_unfolding_all rfl⟩⟩

theorem bitsOf16 (lo hi : UInt8) : Crc.bitsOf 16 (lo.toNat + 256 * hi.toNat) = Crc.bitsOf 8 hi.toNat ++ Crc.bitsOf 8 lo.toNat := by
  have hlo := UInt8.toNat_lt lo
  have h1 : ∀ i, i < 8 → (lo.toNat + 256 * hi.toNat).testBit i = lo.toNat.testBit i := by
    intro i hi'
    have : (lo.toNat + 256 * hi.toNat).testBit i = ((lo.toNat + 256 * hi.toNat) % 2 ^ 8).testBit i := by
      rw [Nat.testBit_mod_two_pow]; simp [hi']
    rw [this, show (lo.toNat + 256 * hi.toNat) % 2 ^ 8 = lo.toNat by omega]
  have h2 : ∀ i, (lo.toNat + 256 * hi.toNat).testBit (8 + i) = hi.toNat.testBit i := by
    intro i
    rw [← Nat.testBit_shiftRight, Nat.shiftRight_eq_div_pow, show (lo.toNat + 256 * hi.toNat) / 2 ^ 8 = hi.toNat by omega]
  have h2' := fun i => h2 i
  simp only [Crc.bitsOf, List.range_succ, List.range_zero, List.nil_append, List.reverse_cons, List.reverse_nil,
    List.map_cons, List.map_nil, List.cons_append]
  rw [h1 0 (by omega), h1 1 (by omega), h1 2 (by omega), h1 3 (by omega), h1 4 (by omega), h1 5 (by omega), h1 6 (by omega),
    h1 7 (by omega), h2 0, h2 1, h2 2, h2 3, h2 4, h2 5, h2 6, h2 7]

/-- What the hypotheses of the C03 theorems say of a frame cut after the header. -/
theorem cut_facts {env key} {head tl sp : Bytes} (hh : Frame.Honest (head ++ tl)) (hhead : head.length = Frame.hcsPos (head ++ tl) + 1)
    (htl : tl.length = Frame.fdl (head ++ tl) + 2) (h : Frame.outcome env key ⟨head ++ tl, sp⟩ = .code 0) :
    ∃ body lo hi, tl = body ++ [lo, hi] ∧ body.length = Frame.fdl (head ++ tl) ∧ lo.toNat + 256 * hi.toNat = (crc16 body).toNat := by
  have hs := accepted_sum h hh (by simp only [List.length_append]; omega)
  have hr : Frame.rest (head ++ tl) = tl := by
    unfold Frame.rest; rw [← hhead, List.drop_left]
  simp only at hs
  rw [hr] at hs
  have hsplit : tl = tl.take (Frame.fdl (head ++ tl)) ++ tl.drop (Frame.fdl (head ++ tl)) := (List.take_append_drop _ _).symm
  have hdl : (tl.drop (Frame.fdl (head ++ tl))).length = 2 := by rw [List.length_drop]; omega
  obtain ⟨lo, hi, hlh⟩ : ∃ lo hi, tl.drop (Frame.fdl (head ++ tl)) = [lo, hi] := by
    rcases hd : tl.drop (Frame.fdl (head ++ tl)) with _ | ⟨a, _ | ⟨b, _ | ⟨c, t⟩⟩⟩
    · rw [hd] at hdl; simp at hdl
    · rw [hd] at hdl; simp at hdl
    · exact ⟨a, b, rfl⟩
    · rw [hd] at hdl; simp at hdl
  refine ⟨tl.take (Frame.fdl (head ++ tl)), lo, hi, ?_, ?_, ?_⟩
  · rw [← hlh]; exact hsplit
  · rw [List.length_take]; omega
  · rw [← hs]
    unfold Frame.sfrcs Frame.after
    rw [hr, hlh]; rfl

/-- The same header in front of something else of the same length. -/
theorem same_head {head tl tl' : Bytes} (hhead : head.length = Frame.hcsPos (head ++ tl) + 1) :
    (∀ i, i < 10 → byteAt (head ++ tl') i = byteAt (head ++ tl) i) ∧ Frame.hcsPos (head ++ tl') = Frame.hcsPos (head ++ tl) ∧
    Frame.fdl (head ++ tl') = Frame.fdl (head ++ tl) ∧ (Frame.Honest (head ++ tl) → Frame.Honest (head ++ tl')) := by
  have hb := (hcsPos_bounds (head ++ tl)).1
  have h : ∀ i, i < 10 → byteAt (head ++ tl') i = byteAt (head ++ tl) i := by
    intro i hi
    unfold byteAt
    rw [List.getD_append _ _ _ _ (by omega), List.getD_append _ _ _ _ (by omega)]
  obtain ⟨e1, e2, e3, _⟩ := fields_congr h
  refine ⟨h, e1, e3, ?_⟩
  unfold Frame.Honest
  rw [e1, e2, e3]; exact id

theorem not_success {env key p} {c : Slice} (hp : Package.decode env key p c ≠ .panic) (h : Frame.outcome env key c ≠ .code 0) :
    ∃ q code e, Package.decode env key p c = .ret q code (some e) ∧ code ≠ 0 := by
  obtain ⟨h1, h2⟩ := decode_frame env key p c
  cases hd : Package.decode env key p c with
  | panic => exact absurd hd hp
  | ret q code err =>
    rw [hd] at h1
    have : code ≠ 0 := fun h' => h (by rw [← h1, h']; rfl)
    cases err with
    | some e => exact ⟨q, code, e, rfl, this⟩
    | none => exact absurd ((h2 q code none hd).1.mp rfl) this

theorem success_outcome {env key p q} {c : Slice} (h : Package.decode env key p c = .ret q 0 none) :
    Frame.outcome env key c = .code 0 := by
  rw [← (decode_frame env key p c).1, h]; rfl

/-- Flipping an odd number of bits in the body and its checksum of an accepted frame makes `Decode`
return an error. Missing: frames with a wrong header length (`C03_false`). -/
theorem C03_odd_partial (env : Env) (key : Option SecretKey) (p p' q : Package) (head tl tl' sp sp' : Bytes)
    (hh : Frame.Honest (head ++ tl)) (hhead : head.length = Frame.hcsPos (head ++ tl) + 1)
    (htl : tl.length = Frame.fdl (head ++ tl) + 2) (hlen : tl'.length = tl.length)
    (hodd : Crc.dist tl tl' % 2 = 1) (h : Package.decode env key p ⟨head ++ tl, sp⟩ = .ret q 0 none) :
    ∃ q' code e, Package.decode env key p' ⟨head ++ tl', sp'⟩ = .ret q' code (some e) ∧ code ≠ 0 := by
  obtain ⟨_, e1, e3, e4⟩ := same_head (tl' := tl') hhead
  refine not_success (C11_no_panic_partial env key p' _ (.inl (e4 hh))) fun h' => ?_
  obtain ⟨b1, lo1, hi1, r1, _, s1⟩ := cut_facts hh hhead htl (success_outcome h)
  obtain ⟨b2, lo2, hi2, r2, _, s2⟩ := cut_facts (e4 hh) (by rw [e1]; exact hhead) (by rw [e3, hlen]; exact htl) h'
  have par : ∀ (b : Bytes) (lo hi : UInt8), lo.toNat + 256 * hi.toNat = (crc16 b).toNat →
      ((Crc.bits (b ++ [lo, hi])).count true : ZMod 2) = 0 := by
    intro b lo hi hs
    have hp := Crc.crc16_parity b
    rw [← hs, bitsOf16, List.count_append] at hp
    rw [Crc.bits_append, List.count_append]
    simp only [Crc.bits, List.flatMap_cons, List.flatMap_nil, List.append_nil, List.count_append] at hp ⊢
    have := CharTwo.add_self_eq_zero ((List.count true (List.flatMap (fun x => Crc.bitsOf 8 x.toNat) b) : Nat) : ZMod 2)
    push_cast at hp ⊢
    rw [← hp] at this ⊢
    linear_combination this
  have hd := Crc.dist_parity (Crc.bits tl) (Crc.bits tl') (by rw [Crc.bits_length, Crc.bits_length, hlen])
  have p1 := par b1 lo1 hi1 s1
  have p2 := par b2 lo2 hi2 s2
  rw [← r1] at p1
  rw [← r2] at p2
  rw [p1, p2, add_zero] at hd
  have : (Crc.dist tl tl' : ZMod 2) = 0 := hd
  rw [ZMod.natCast_eq_zero_iff] at this
  omega

set_option maxRecDepth 20000 in
example (env : Env) : Frame.Honest (respFrame.take 11 ++ respFrame.drop 11) ∧
    (respFrame.take 11).length = Frame.hcsPos (respFrame.take 11 ++ respFrame.drop 11) + 1 ∧
    (respFrame.drop 11).length = Frame.fdl (respFrame.take 11 ++ respFrame.drop 11) + 2 ∧
    Crc.dist (respFrame.drop 11) [217, 2, 0, 169, 1] % 2 = 1 ∧
    ∃ q, Package.decode env none {} ⟨respFrame.take 11 ++ respFrame.drop 11, []⟩ = .ret q 0 none :=
  ⟨by decide +kernel, by decide +kernel, by decide +kernel, by decide +kernel, respPackage, by with_unfolding_all rfl⟩

/-- Altering the body of an accepted frame within 16 consecutive bits makes `Decode` return an error.
Missing: frames with a wrong header length (`C03_false`). -/
theorem C03_burst_partial (env : Env) (key : Option SecretKey) (p p' q : Package) (head body body' sum sp sp' : Bytes)
    (hh : Frame.Honest (head ++ (body ++ sum))) (hhead : head.length = Frame.hcsPos (head ++ (body ++ sum)) + 1)
    (hbody : body.length = Frame.fdl (head ++ (body ++ sum))) (hsum : sum.length = 2) (hburst : Crc.Burst 16 body body')
    (h : Package.decode env key p ⟨head ++ (body ++ sum), sp⟩ = .ret q 0 none) :
    ∃ q' code e, Package.decode env key p' ⟨head ++ (body' ++ sum), sp'⟩ = .ret q' code (some e) ∧ code ≠ 0 := by
  obtain ⟨_, e1, e3, e4⟩ := same_head (tl' := body' ++ sum) hhead
  refine not_success (C11_no_panic_partial env key p' _ (.inl (e4 hh))) fun h' => ?_
  obtain ⟨b1, lo1, hi1, r1, l1, s1⟩ := cut_facts hh hhead (by rw [List.length_append]; omega) (success_outcome h)
  obtain ⟨b2, lo2, hi2, r2, l2, s2⟩ := cut_facts (e4 hh) (by rw [e1]; exact hhead) (by
    rw [e3, List.length_append, ← hburst.2.1]; omega) h'
  obtain ⟨x1, x2⟩ := List.append_inj r1 (by omega)
  obtain ⟨y1, y2⟩ := List.append_inj r2 (by rw [l2, e3, ← hbody, hburst.2.1])
  rw [x2] at y2
  injection y2 with z1 z2
  injection z2 with z2
  subst x1 y1
  apply Crc.crc16_burst hburst
  rw [← UInt16.toNat_inj, ← s1, ← s2, z1, z2]

example : Crc.Burst 16 [216, 0, 0] [216, 0x0F, 0xF0] :=
  ⟨by decide, rfl, 8, by decide +kernel, by decide +kernel⟩

/-- Altering the body checksum alone, in any way, makes `Decode` return an error. Missing: frames with a
wrong header length (`C03_false`). -/
theorem C03_checksum_partial (env : Env) (key : Option SecretKey) (p p' q : Package) (head body sum sum' sp sp' : Bytes)
    (hh : Frame.Honest (head ++ (body ++ sum))) (hhead : head.length = Frame.hcsPos (head ++ (body ++ sum)) + 1)
    (hbody : body.length = Frame.fdl (head ++ (body ++ sum))) (hsum : sum.length = 2) (hsum' : sum'.length = 2) (hne : sum' ≠ sum)
    (h : Package.decode env key p ⟨head ++ (body ++ sum), sp⟩ = .ret q 0 none) :
    ∃ q' code e, Package.decode env key p' ⟨head ++ (body ++ sum'), sp'⟩ = .ret q' code (some e) ∧ code ≠ 0 := by
  obtain ⟨_, e1, e3, e4⟩ := same_head (tl' := body ++ sum') hhead
  refine not_success (C11_no_panic_partial env key p' _ (.inl (e4 hh))) fun h' => ?_
  obtain ⟨b1, lo1, hi1, r1, l1, s1⟩ := cut_facts hh hhead (by rw [List.length_append]; omega) (success_outcome h)
  obtain ⟨b2, lo2, hi2, r2, l2, s2⟩ := cut_facts (e4 hh) (by rw [e1]; exact hhead) (by
    rw [e3, List.length_append]; omega) h'
  obtain ⟨x1, x2⟩ := List.append_inj r1 (by omega)
  obtain ⟨y1, y2⟩ := List.append_inj r2 (by omega)
  subst x1
  subst y1
  apply hne
  have := UInt8.toNat_lt lo1
  have := UInt8.toNat_lt lo2
  rw [x2, y2, UInt8.toNat_inj.mp (show lo1.toNat = lo2.toNat by omega), UInt8.toNat_inj.mp (show hi1.toNat = hi2.toNat by omega)]

/-! ## C04 -/

set_option maxRecDepth 20000 in
/-- Full statement of C04 (not provable): `C04_header_partial` without `Frame.Honest`. A frame with a wrong
header length is accepted with either of two packet identifiers. -/
theorem C04_false (env : Env) : ∃ b b' : Bytes, Crc.dist (b.take 11) (b'.take 11) = 1 ∧ b.drop 11 = b'.drop 11 ∧
    byteAt b 3 = byteAt b' 3 ∧ byteAt b 2 = byteAt b' 2 ∧
    (∃ q, Package.decode env none {} ⟨b, []⟩ = .ret q 0 none) ∧ (∃ q, Package.decode env none {} ⟨b', []⟩ = .ret q 0 none) :=
  ⟨slyFrame 0, (slyFrame 0).set 7 4, by decide +kernel, rfl, rfl, rfl, ⟨slyPackage 0, by with_unfolding_all rfl⟩,
    ⟨{ slyPackage 0 with packetIdentifier := 4 }, by with_unfolding_all rfl⟩⟩

/-- If an odd number of header bits are flipped, or some within 8 consecutive bits, the checksum byte
included but the header length and the routing flag not, `Decode` reports code 137. Missing: frames with
a wrong header length (`C04_false`). -/
theorem C04_header_partial (env : Env) (key : Option SecretKey) (p p' q : Package) (head head' tl sp sp' : Bytes)
    (hh : Frame.Honest (head ++ tl)) (hhead : head.length = Frame.hcsPos (head ++ tl) + 1) (hlen : head'.length = head.length)
    (hhl : byteAt (head' ++ tl) 3 = byteAt (head ++ tl) 3) (hrte : Frame.Routed (head' ++ tl) ↔ Frame.Routed (head ++ tl))
    (herr : Crc.dist head head' % 2 = 1 ∨ Crc.Burst 8 head head')
    (h : Package.decode env key p ⟨head ++ tl, sp⟩ = .ret q 0 none) :
    ∃ q', Package.decode env key p' ⟨head' ++ tl, sp'⟩ = .ret q' 137 (some .checksum) := by
  have hpos : Frame.hcsPos (head' ++ tl) = Frame.hcsPos (head ++ tl) := by
    unfold Frame.hcsPos; simp only [hrte]
  have hend : Frame.headEnd (head' ++ tl) = Frame.hcsPos (head' ++ tl) := by
    have : Frame.hl (head' ++ tl) = Frame.hcsPos (head' ++ tl) + 1 := by
      rw [hpos]; exact hhl.trans hh.1
    unfold Frame.headEnd
    rw [this]; simp
  have cut : ∀ d : Bytes, d.length = Frame.hcsPos (head ++ tl) + 1 →
      ∃ a x, d = a ++ [x] ∧ a.length = Frame.hcsPos (head ++ tl) ∧
        byteAt (d ++ tl) (Frame.hcsPos (head ++ tl)) = x.toNat ∧ (d ++ tl).take (Frame.hcsPos (head ++ tl)) = a := by
    intro d hd
    have hne : d ≠ [] := by rintro rfl; simp at hd
    refine ⟨d.dropLast, d.getLast hne, (List.dropLast_append_getLast hne).symm, by rw [List.length_dropLast]; omega, ?_, ?_⟩
    · generalize Frame.hcsPos (head ++ tl) = n at *
      conv_lhs => rw [← List.dropLast_append_getLast hne]
      have : d.dropLast.length = n := by rw [List.length_dropLast]; omega
      unfold byteAt
      rw [List.append_assoc, ← this, List.getD_append_right _ _ _ _ (le_refl _)]
      simp
    · generalize Frame.hcsPos (head ++ tl) = n at *
      conv_lhs => rw [← List.dropLast_append_getLast hne]
      have : d.dropLast.length = n := by rw [List.length_dropLast]; omega
      rw [List.append_assoc, ← this, List.take_left]
  obtain ⟨a, x, ra, la, ba, ta⟩ := cut head hhead
  obtain ⟨b, y, rb, lb, bb, tb⟩ := cut head' (by omega)
  have hacc := accepted_head (success_outcome h) hh
  simp only at hacc
  rw [ba, ta] at hacc
  have hx : crc8 a = x := (UInt8.toNat_inj.mp hacc).symm
  have hy : crc8 b ≠ y := by
    rcases herr with hodd | hburst
    · intro hy
      have hd := Crc.dist_parity (Crc.bits head) (Crc.bits head') (by rw [Crc.bits_length, Crc.bits_length, hlen])
      have par : ∀ (d : Bytes) (z : UInt8), crc8 d = z → ((Crc.bits (d ++ [z])).count true : ZMod 2) = 0 := by
        intro d z hz
        have hp := Crc.crc8_parity d
        rw [hz] at hp
        rw [Crc.bits_append, List.count_append]
        simp only [Crc.bits, List.flatMap_cons, List.flatMap_nil, List.append_nil] at hp ⊢
        push_cast
        rw [hp]
        exact CharTwo.add_self_eq_zero _
      have p1 := par a x hx
      have p2 := par b y hy
      rw [← ra] at p1
      rw [← rb] at p2
      rw [p1, p2, add_zero] at hd
      have : (Crc.dist head head' : ZMod 2) = 0 := hd
      rw [ZMod.natCast_eq_zero_iff] at this
      omega
    · rw [ra, rb] at hburst
      exact Crc.crc8_burst hburst hx
  have hl : (head' ++ tl).length = head'.length + tl.length := List.length_append
  rw [decode_tail env key p' ⟨head' ++ tl, sp'⟩ (by simp only; rw [hpos, hl]; omega)]
  simp only
  have hal : (Slice.all ⟨head' ++ tl, sp'⟩).length = (head' ++ tl).length + sp'.length := by simp [Slice.all, Nat.add_assoc]
  rw [if_neg (by rw [hal, hend, hpos, hl]; omega), if_pos]
  · exact ⟨_, rfl⟩
  · rw [hend, hpos, bb, take_all (by rw [hl]; omega), tb]
    exact fun h => hy (UInt8.toNat_inj.mp h).symm

example : Crc.dist (respFrame.take 11) ((respFrame.take 11).set 5 2) % 2 = 1 ∧
    Crc.Burst 8 (respFrame.take 11) (((respFrame.take 11).set 9 3).set 10 0xFF) := by
  refine ⟨by decide +kernel, by decide, rfl, 78, by decide +kernel, by decide +kernel⟩

end Egts
