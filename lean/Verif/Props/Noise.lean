import Verif.Proofs.TwoBits
import Verif.Props.Checksums
import Verif.Props.Layout

/-! # Up to three wrong bits (C90) -/

namespace Egts

/-- A frame after the header: the body and its checksum. Up to three wrong bits are noticed. -/
theorem tail_noticed {b1 b2 : Bytes} {lo1 hi1 lo2 hi2 : UInt8} (hl : b1.length = b2.length) (hn : b1.length ≤ 4093)
    (s1 : lo1.toNat + 256 * hi1.toNat = (crc16 b1).toNat) (s2 : lo2.toNat + 256 * hi2.toNat = (crc16 b2).toNat)
    (h1 : 1 ≤ Crc.dist (b1 ++ [lo1, hi1]) (b2 ++ [lo2, hi2])) (h3 : Crc.dist (b1 ++ [lo1, hi1]) (b2 ++ [lo2, hi2]) ≤ 3) : False := by
  have hd : Crc.dif (Crc.bits b1 ++ Crc.bitsOf 16 (crc16 b1).toNat) (Crc.bits b2 ++ Crc.bitsOf 16 (crc16 b2).toNat) =
      Crc.dist (b1 ++ [lo1, hi1]) (b2 ++ [lo2, hi2]) := by
    rw [Crc.dist_append hl, ← s1, ← s2, bitsOf16, bitsOf16, Crc.dif_append (by simp [Crc.bits_length, hl]), Crc.dist_eq, Crc.dist_eq,
      Crc.dif_append (by simp [Crc.bitsOf_length])]
    simp only [Crc.bits, List.flatMap_cons, List.flatMap_nil, List.append_nil]
    rw [Crc.dif_append (a := Crc.bitsOf 8 lo1.toNat) (by simp [Crc.bitsOf_length])]
    omega
  have hp := Crc.dist_parity (Crc.bits b1 ++ Crc.bitsOf 16 (crc16 b1).toNat) (Crc.bits b2 ++ Crc.bitsOf 16 (crc16 b2).toNat)
    (by simp [Crc.bits_length, Crc.bitsOf_length, hl])
  have even : ∀ b : Bytes, ((Crc.bits b ++ Crc.bitsOf 16 (crc16 b).toNat).count true : ZMod 2) = 0 := by
    intro b
    rw [List.count_append]
    push_cast
    rw [Crc.crc16_parity]
    exact CharTwo.add_self_eq_zero _
  rw [even, even, add_zero] at hp
  have h0 : (Crc.dif (Crc.bits b1 ++ Crc.bitsOf 16 (crc16 b1).toNat) (Crc.bits b2 ++ Crc.bitsOf 16 (crc16 b2).toNat) : ZMod 2) = 0 := hp
  rw [ZMod.natCast_eq_zero_iff, hd] at h0
  exact Crc.crc16_two hl hn (by omega)

/-- A header with its checksum: up to three wrong bits are noticed, except the first and the last of 128. -/
theorem head_noticed {a b : Bytes} (hl : a.length = b.length) (hn : a.length ≤ 15)
    (h1 : 1 ≤ Crc.dist (a ++ [crc8 a]) (b ++ [crc8 b])) (h3 : Crc.dist (a ++ [crc8 a]) (b ++ [crc8 b]) ≤ 3) :
    Crc.dist (a ++ [crc8 a]) (b ++ [crc8 b]) = 2 ∧ a.length = 15 ∧
      (Crc.bits (a ++ [crc8 a])).head? ≠ (Crc.bits (b ++ [crc8 b])).head? ∧
      (Crc.bits (a ++ [crc8 a])).getLast? ≠ (Crc.bits (b ++ [crc8 b])).getLast? := by
  have hp := Crc.dist_parity (Crc.bits (a ++ [crc8 a])) (Crc.bits (b ++ [crc8 b])) (by simp [Crc.bits_length, hl])
  have even : ∀ b : Bytes, ((Crc.bits (b ++ [crc8 b])).count true : ZMod 2) = 0 := by
    intro b
    rw [Crc.bits_append, List.count_append]
    push_cast
    have := Crc.crc8_parity b
    simp only [Crc.bits, List.flatMap_cons, List.flatMap_nil, List.append_nil] at this ⊢
    rw [this]
    exact CharTwo.add_self_eq_zero _
  rw [even, even, add_zero] at hp
  have h0 : (Crc.dist (a ++ [crc8 a]) (b ++ [crc8 b]) : ZMod 2) = 0 := hp
  rw [ZMod.natCast_eq_zero_iff] at h0
  have h2 : Crc.dist (a ++ [crc8 a]) (b ++ [crc8 b]) = 2 := by omega
  exact ⟨h2, Crc.crc8_two hl hn h2⟩

/-- First bits that differ: in the highest bit of the first byte. -/
theorem head?_bits (x y : UInt8) (a b : Bytes) (h : (Crc.bits (x :: a)).head? ≠ (Crc.bits (y :: b)).head?) :
    x.toNat / 128 ≠ y.toNat / 128 ∧ 1 ≤ Crc.dist [x] [y] := by
  have e : ∀ (z : UInt8) (c : Bytes), (Crc.bits (z :: c)).head? = some (z.toNat.testBit 7) := by
    intro z c
    simp [Crc.bits, Crc.bitsOf, List.range_succ]
  rw [e, e] at h
  constructor
  · intro h'
    apply h
    have : ∀ z : UInt8, z.toNat.testBit 7 = decide (z.toNat / 128 = 1) := by
      intro z
      have hz := UInt8.toNat_lt z
      rw [Nat.testBit_eq_decide_div_mod_eq]
      congr 1
      rw [Nat.mod_eq_of_lt (by omega)]
    rw [this, this, h']
  · rcases Nat.eq_zero_or_pos (Crc.dist [x] [y]) with h0 | h0
    · have := Crc.dist_zero (by rfl) h0
      injection this with h' _
      rw [h'] at h; exact absurd rfl h
    · exact h0

/-- Last bits that differ: in the lowest bit of the last byte. -/
theorem getLast?_bits (x y : UInt8) (a b : Bytes) (h : (Crc.bits (a ++ [x])).getLast? ≠ (Crc.bits (b ++ [y])).getLast?) :
    x.toNat % 2 ≠ y.toNat % 2 ∧ 1 ≤ Crc.dist [x] [y] := by
  have e : ∀ (z : UInt8) (c : Bytes), (Crc.bits (c ++ [z])).getLast? = some (z.toNat.testBit 0) := by
    intro z c
    simp [Crc.bits, Crc.bitsOf, List.range_succ]
  rw [e, e] at h
  constructor
  · intro h'
    apply h
    rw [Nat.testBit_zero, Nat.testBit_zero, h']
  · rcases Nat.eq_zero_or_pos (Crc.dist [x] [y]) with h0 | h0
    · have := Crc.dist_zero (by rfl) h0
      injection this with h' _
      rw [h'] at h; exact absurd rfl h
    · exact h0

/-- If two headers differ in their first and last bit only, the bytes between are the same. -/
theorem between {a b : Bytes} {x y : UInt8} (hl : a.length = b.length) (h2 : Crc.dist (a ++ [x]) (b ++ [y]) = 2) (ha : a ≠ [])
    (hf : (Crc.bits (a ++ [x])).head? ≠ (Crc.bits (b ++ [y])).head?)
    (hg : (Crc.bits (a ++ [x])).getLast? ≠ (Crc.bits (b ++ [y])).getLast?) :
    byteAt a 0 / 128 ≠ byteAt b 0 / 128 ∧ x.toNat % 2 ≠ y.toNat % 2 ∧ a.tail = b.tail := by
  obtain ⟨g1, g2⟩ := getLast?_bits x y a b hg
  cases a with
  | nil => exact absurd rfl ha
  | cons u a =>
    cases b with
    | nil => simp at hl
    | cons v b =>
      have hl' : a.length = b.length := by simpa using hl
      obtain ⟨f1, f2⟩ := head?_bits u v (a ++ [x]) (b ++ [y]) hf
      refine ⟨f1, g1, ?_⟩
      rw [show u :: a ++ [x] = [u] ++ (a ++ [x]) from rfl, show v :: b ++ [y] = [v] ++ (b ++ [y]) from rfl,
        Crc.dist_append (by rfl), Crc.dist_append hl'] at h2
      have h0 : Crc.dist a b = 0 := by omega
      exact Crc.dist_zero hl' h0

/-- A frame cut at the header checksum. -/
theorem frame_cut {b : Bytes} {n : Nat} (h : n < b.length) (hs : byteAt b n = (crc8 (b.take n)).toNat) :
    b = (b.take n ++ [crc8 (b.take n)]) ++ b.drop (n + 1) := by
  have hx : b[n] = crc8 (b.take n) := by
    apply UInt8.toNat_inj.mp
    rw [← hs]
    unfold byteAt
    rw [List.getD_eq_getElem _ _ h]
  rw [← hx, List.take_append_getElem h, List.take_append_drop]

/-- Up to three wrong bits in an accepted frame, outside the declared header length and the routing flag, make `Decode` return an error.
Missing: of a frame with routing fields, the first bit of the frame and the last of the header, both together (`C90_false`); bodies of 4094 bytes
and more (`C90_false_long`). -/
theorem C90_three_bits_partial (env : Env) (key : Option SecretKey) (p p' q : Package) (b b' sp sp' : Bytes)
    (hh : Frame.Honest b) (hlen : b.length = Frame.total b) (hn : Frame.fdl b ≤ 4093)
    (h : Package.decode env key p ⟨b, sp⟩ = .ret q 0 none)
    (hlen' : b'.length = b.length) (hhl : byteAt b' 3 = byteAt b 3) (hrte : Frame.Routed b' ↔ Frame.Routed b)
    (h1 : 1 ≤ Crc.dist b b') (h3 : Crc.dist b b' ≤ 3)
    (hx : ¬ (Frame.Routed b ∧ Crc.dist b b' = 2 ∧ byteAt b 0 / 128 ≠ byteAt b' 0 / 128 ∧ byteAt b 15 % 2 ≠ byteAt b' 15 % 2)) :
    ∃ q' code e, Package.decode env key p' ⟨b', sp'⟩ = .ret q' code (some e) ∧ code ≠ 0 := by
  have hpos : Frame.hcsPos b' = Frame.hcsPos b := by
    unfold Frame.hcsPos; simp only [hrte]
  have hend : Frame.headEnd b' = Frame.hcsPos b := by
    have : Frame.hl b' = Frame.hcsPos b + 1 := hhl.trans hh.1
    unfold Frame.headEnd
    rw [this]; simp
  have hb := hcsPos_bounds b
  have htot : Frame.total b = Frame.hcsPos b + 1 + Frame.fdl b + 2 := rfl
  have hacc := accepted_head (success_outcome h) hh
  simp only at hacc
  by_cases hs : byteAt b' (Frame.hcsPos b) = (crc8 (b'.take (Frame.hcsPos b))).toNat
  · have r1 := frame_cut (by omega) hacc
    have r2 := frame_cut (b := b') (by omega) hs
    have hal : (b.take (Frame.hcsPos b)).length = Frame.hcsPos b := by rw [List.length_take]; omega
    have hal' : (b'.take (Frame.hcsPos b)).length = Frame.hcsPos b := by rw [List.length_take]; omega
    have htl : (b.drop (Frame.hcsPos b + 1)).length = Frame.fdl b + 2 := by rw [List.length_drop]; omega
    have htl' : (b'.drop (Frame.hcsPos b + 1)).length = Frame.fdl b + 2 := by rw [List.length_drop]; omega
    have h15 : Frame.hcsPos b = 15 → Frame.Routed b := by
      unfold Frame.hcsPos; split
      · intro _; assumption
      · intro h; omega
    have hd : Crc.dist b b' = Crc.dist (b.take (Frame.hcsPos b) ++ [crc8 (b.take (Frame.hcsPos b))])
        (b'.take (Frame.hcsPos b) ++ [crc8 (b'.take (Frame.hcsPos b))]) +
        Crc.dist (b.drop (Frame.hcsPos b + 1)) (b'.drop (Frame.hcsPos b + 1)) := by
      conv_lhs => rw [r1, r2]
      exact Crc.dist_append (by simp; omega)
    -- the fields between the first byte and the checksum are the same, and something is wrong with the rest
    have key1 : (b.take (Frame.hcsPos b)).tail = (b'.take (Frame.hcsPos b)).tail ∧
        1 ≤ Crc.dist (b.drop (Frame.hcsPos b + 1)) (b'.drop (Frame.hcsPos b + 1)) := by
      rcases Nat.eq_zero_or_pos (Crc.dist (b.take (Frame.hcsPos b) ++ [crc8 (b.take (Frame.hcsPos b))])
        (b'.take (Frame.hcsPos b) ++ [crc8 (b'.take (Frame.hcsPos b))])) with h0 | h0
      · have := Crc.dist_zero (by simp; omega) h0
        have := (List.append_inj this (by rw [hal, hal'])).1
        exact ⟨by rw [this], by omega⟩
      · obtain ⟨k1, k2, k3, k4⟩ := head_noticed (by rw [hal, hal']) (by omega) h0 (by omega)
        obtain ⟨k5, k6, k7⟩ := between (by rw [hal, hal']) k1 (by intro h; rw [h] at k2; simp at k2) k3 k4
        refine ⟨k7, ?_⟩
        by_contra h'
        rw [hal] at k2
        apply hx
        refine ⟨h15 k2, by omega, ?_, ?_⟩
        · rw [k2] at k5
          unfold byteAt at k5 ⊢
          rw [List.getD_eq_getElem _ _ (by rw [List.length_take]; omega), List.getD_eq_getElem _ _ (by rw [List.length_take]; omega),
            List.getElem_take, List.getElem_take] at k5
          rw [List.getD_eq_getElem _ _ (by omega), List.getD_eq_getElem _ _ (by omega)]
          exact k5
        · rw [k2] at hacc hs k6
          rw [hacc, hs]; exact k6
    obtain ⟨k1, k2⟩ := key1
    have same : ∀ i, 0 < i → i < 10 → byteAt b' i = byteAt b i := by
      intro i hi hi'
      have e : ∀ d : Bytes, d.length = b.length → byteAt d i = byteAt (d.take (Frame.hcsPos b)).tail (i - 1) := by
        intro d hd
        unfold byteAt
        rw [List.getD_eq_getElem _ _ (by omega), List.getD_eq_getElem _ _ (by simp; omega), List.getElem_tail, List.getElem_take]
        congr 2; omega
      rw [e b' hlen', e b rfl, k1]
    have hfdl : Frame.fdl b' = Frame.fdl b := by
      unfold Frame.fdl; rw [same 5 (by omega) (by omega), same 6 (by omega) (by omega)]
    have hh' : Frame.Honest b' := by
      unfold Frame.Honest Frame.hl
      rw [hhl, hpos, hfdl]; exact hh
    refine not_success (C11_no_panic_partial env key p' _ (.inl hh')) fun h' => ?_
    rw [r1] at hh h
    have hrest : ∀ d, d.length = b.length → Frame.hcsPos d = Frame.hcsPos b → ∀ m : Bytes, m.length = Frame.hcsPos b →
        d = (m ++ [crc8 m]) ++ d.drop (Frame.hcsPos b + 1) → (m ++ [crc8 m]).length = Frame.hcsPos ((m ++ [crc8 m]) ++ d.drop (Frame.hcsPos b + 1)) + 1 := by
      intro d _ h2 m h3 h4
      rw [← h4, h2]; simp [h3]
    obtain ⟨c1, lo1, hi1, t1, l1, s1⟩ := cut_facts hh (hrest b rfl rfl _ hal r1) (by rw [← r1]; exact htl) (success_outcome h)
    rw [r2] at hh' h'
    obtain ⟨c2, lo2, hi2, t2, l2, s2⟩ := cut_facts hh' (hrest b' hlen' hpos _ hal' r2) (by rw [← r2, hfdl]; exact htl') h'
    rw [← r1] at l1
    rw [← r2, hfdl] at l2
    rw [t1, t2] at hd k2
    exact tail_noticed (by omega) (by omega) s1 s2 k2 (by omega)
  · rw [decode_tail env key p' ⟨b', sp'⟩ (by simp only; rw [hpos]; omega)]
    simp only
    have hal : (Slice.all ⟨b', sp'⟩).length = b'.length + sp'.length := by simp [Slice.all]
    rw [if_neg (by rw [hal, hend]; omega), if_pos]
    · exact ⟨_, _, _, rfl, by decide⟩
    · rw [hend, hpos, take_all (by omega)]
      exact hs

set_option maxRecDepth 20000 in
/-- A response, one bit of its packet identifier and two of its body altered: the hypotheses hold. -/
example (env : Env) : Frame.Honest respFrame ∧ respFrame.length = Frame.total respFrame ∧ Frame.fdl respFrame ≤ 4093 ∧
    (∃ q, Package.decode env none {} ⟨respFrame, []⟩ = .ret q 0 none) ∧
    Crc.dist respFrame [1, 0, 0, 11, 0, 3, 0, 4, 0, 0, 63, 217, 0, 128, 169, 0] = 3 ∧ ¬ Frame.Routed respFrame :=
  ⟨by decide +kernel, by decide +kernel, by decide +kernel, ⟨respPackage, by with_unfolding_all rfl⟩, by decide +kernel, by decide +kernel⟩

theorem one_flipped (u : UInt8) : Crc.dist [u] [u ^^^ 128] = 1 ∧ Crc.dist [u] [u ^^^ 1] = 1 := by
  have : ∀ n : Fin 256, Crc.dist [UInt8.ofNat n] [UInt8.ofNat n ^^^ 128] = 1 ∧ Crc.dist [UInt8.ofNat n] [UInt8.ofNat n ^^^ 1] = 1 := by
    decide +kernel
  have := this ⟨u.toNat, UInt8.toNat_lt u⟩
  simpa using this

/-- In every accepted frame with routing fields the first bit of the frame and the last of the header can be altered together: the frame
is accepted all the same, with another protocol version. -/
theorem C90_false (env : Env) (key : Option SecretKey) (p q : Package) (x y : UInt8) (m tl sp : Bytes) (hm : m.length = 14)
    (hh : Frame.Honest (x :: m ++ y :: tl)) (hr : Frame.Routed (x :: m ++ y :: tl))
    (h : Package.decode env key p ⟨x :: m ++ y :: tl, sp⟩ = .ret q 0 none) :
    Crc.dist (x :: m ++ y :: tl) ((x ^^^ 128) :: m ++ (y ^^^ 1) :: tl) = 2 ∧
    ∃ q', Package.decode env key p ⟨(x ^^^ 128) :: m ++ (y ^^^ 1) :: tl, sp⟩ = .ret q' 0 none ∧
      q'.protocolVersion = q.protocolVersion ^^^ 128 := by
  have same : ∀ i, 0 < i → i < 15 → byteAt ((x ^^^ 128) :: m ++ (y ^^^ 1) :: tl) i = byteAt (x :: m ++ y :: tl) i := by
    intro i h0 hi
    obtain ⟨j, rfl⟩ : ∃ j, i = j + 1 := ⟨i - 1, by omega⟩
    unfold byteAt
    simp only [List.cons_append, List.getD_cons_succ]
    rw [List.getD_append _ _ _ _ (by omega), List.getD_append _ _ _ _ (by omega)]
  have hr' : Frame.Routed ((x ^^^ 128) :: m ++ (y ^^^ 1) :: tl) := by
    unfold Frame.Routed at hr ⊢; rw [same 2 (by omega) (by omega)]; exact hr
  have p1 : Frame.hcsPos (x :: m ++ y :: tl) = 15 := by unfold Frame.hcsPos; rw [if_pos hr]
  have p2 : Frame.hcsPos ((x ^^^ 128) :: m ++ (y ^^^ 1) :: tl) = 15 := by unfold Frame.hcsPos; rw [if_pos hr']
  have e3 : Frame.hl ((x ^^^ 128) :: m ++ (y ^^^ 1) :: tl) = Frame.hl (x :: m ++ y :: tl) := same 3 (by omega) (by omega)
  have e4 : Frame.fdl ((x ^^^ 128) :: m ++ (y ^^^ 1) :: tl) = Frame.fdl (x :: m ++ y :: tl) := by
    unfold Frame.fdl; rw [same 5 (by omega) (by omega), same 6 (by omega) (by omega)]
  have e5 : Frame.pt ((x ^^^ 128) :: m ++ (y ^^^ 1) :: tl) = Frame.pt (x :: m ++ y :: tl) := same 9 (by omega) (by omega)
  have e6 : Frame.Encrypted ((x ^^^ 128) :: m ++ (y ^^^ 1) :: tl) ↔ Frame.Encrypted (x :: m ++ y :: tl) := by
    unfold Frame.Encrypted; rw [same 2 (by omega) (by omega)]
  have d16 : ∀ (u v : UInt8) (s : Bytes) (n : Nat), 16 ≤ n → (u :: m ++ v :: s).drop n = s.drop (n - 16) := by
    intro u v s n hn
    obtain ⟨k, rfl⟩ : ∃ k, n = k + 16 := ⟨n - 16, by omega⟩
    rw [show u :: m ++ v :: s = (u :: m ++ [v]) ++ s by simp, Nat.add_comm, ← List.drop_drop]
    rw [show List.drop 16 (u :: m ++ [v] ++ s) = s from List.drop_left' (by simp [hm])]
    simp
  have r1 : Frame.rest (x :: m ++ y :: tl) = tl := by unfold Frame.rest; rw [p1, d16 _ _ _ _ (by omega)]; rfl
  have r2 : Frame.rest ((x ^^^ 128) :: m ++ (y ^^^ 1) :: tl) = tl := by unfold Frame.rest; rw [p2, d16 _ _ _ _ (by omega)]; rfl
  have r3 : Frame.body ((x ^^^ 128) :: m ++ (y ^^^ 1) :: tl) = Frame.body (x :: m ++ y :: tl) := by
    unfold Frame.body; rw [r1, r2, e4]
  have r4 : Frame.after ((x ^^^ 128) :: m ++ (y ^^^ 1) :: tl) = Frame.after (x :: m ++ y :: tl) := by
    unfold Frame.after; rw [r1, r2, e4]
  have r5 : Frame.content env key ((x ^^^ 128) :: m ++ (y ^^^ 1) :: tl) = Frame.content env key (x :: m ++ y :: tl) := by
    unfold Frame.content Frame.clear
    rw [r3, e5]
    simp only [e6]
  have hl1 := hh.1
  rw [p1] at hl1
  have t15 : ∀ (u v : UInt8), (u :: m ++ v :: tl ++ sp).take 15 = u :: m := by
    intro u v
    rw [List.append_assoc]
    exact List.take_left' (by simp [hm])
  have b15 : ∀ (u v : UInt8), byteAt (u :: m ++ v :: tl) 15 = v.toNat := by
    intro u v
    unfold byteAt
    rw [List.getD_append_right _ _ _ _ (by simp [hm])]
    simp [hm]
  have ho := success_outcome h
  have ho' : Frame.outcome env key ⟨(x ^^^ 128) :: m ++ (y ^^^ 1) :: tl, sp⟩ = .code 0 := by
    have hend : Frame.headEnd (x :: m ++ y :: tl) = 15 := by unfold Frame.headEnd; rw [hl1]; rfl
    have hend' : Frame.headEnd ((x ^^^ 128) :: m ++ (y ^^^ 1) :: tl) = 15 := by unfold Frame.headEnd; rw [e3, hl1]; rfl
    have hbe : Frame.bodyEnd ((x ^^^ 128) :: m ++ (y ^^^ 1) :: tl) = Frame.bodyEnd (x :: m ++ y :: tl) := by
      unfold Frame.bodyEnd; rw [e3, e4]
    have hsf : Frame.sfrcs ((x ^^^ 128) :: m ++ (y ^^^ 1) :: tl) = Frame.sfrcs (x :: m ++ y :: tl) := by unfold Frame.sfrcs; rw [r4]
    have hcov : ∀ (u v : UInt8) (n : Nat), ((u :: m ++ v :: tl ++ sp).take n).drop 16 = (tl ++ sp).take (n - 16) := by
      intro u v n
      rw [List.drop_take, List.append_assoc, List.cons_append, show u :: (m ++ (v :: tl ++ sp)) = u :: m ++ v :: (tl ++ sp) by simp,
        d16 _ _ _ _ (by omega)]
      rfl
    have hlen : ∀ (u v : UInt8), (u :: m ++ v :: tl).length = tl.length + 16 := by intro u v; simp [hm]; omega
    unfold Frame.outcome Slice.all at ho ⊢
    simp only [p1, p2, hend, hend', r1, r2, e5, r5, r4, hbe, e3, hl1, hsf, hcov, t15, b15, hlen, List.length_append] at ho ⊢
    have hc : ((y ^^^ 1).toNat ≠ (crc8 ((x ^^^ 128) :: m)).toNat) ↔ y.toNat ≠ (crc8 (x :: m)).toNat := by
      rw [Crc.crc8_ends x m hm, ne_eq, ne_eq, UInt8.toNat_inj, UInt8.toNat_inj]
      constructor
      · intro h1 h2; exact h1 (by rw [h2])
      · intro h1 h2
        apply h1
        have := congrArg (· ^^^ 1) h2
        simpa [UInt8.xor_assoc] using this
    simp only [hc]
    exact ho
  refine ⟨?_, ?_⟩
  · have zero : ∀ b : Bytes, Crc.dist b b = 0 := fun b => Crc.dif_self _
    rw [show x :: m ++ y :: tl = [x] ++ (m ++ ([y] ++ tl)) by simp, show (x ^^^ 128) :: m ++ (y ^^^ 1) :: tl = [x ^^^ 128] ++ (m ++ ([y ^^^ 1] ++ tl)) by simp,
      Crc.dist_append (by rfl), Crc.dist_append (by rfl), Crc.dist_append (by rfl), (one_flipped x).1, (one_flipped y).2, zero, zero]
  · have h1 := decode_frame env key p ⟨(x ^^^ 128) :: m ++ (y ^^^ 1) :: tl, sp⟩
    have h2 := (decode_frame env key p ⟨x :: m ++ y :: tl, sp⟩).2 q 0 none h
    obtain ⟨d, _, hq⟩ := h2.2.2 rfl
    rw [ho'] at h1
    cases hd : Package.decode env key p ⟨(x ^^^ 128) :: m ++ (y ^^^ 1) :: tl, sp⟩ with
    | panic => rw [hd] at h1; exact absurd h1.1 (by simp [DecodeResult.outcome])
    | ret q' code err =>
      rw [hd] at h1
      obtain ⟨h3, h4⟩ := h1
      have hc : code = 0 := by simpa [DecodeResult.outcome] using h3
      obtain ⟨h5, _, h6⟩ := h4 q' code err rfl
      obtain ⟨d', _, hq'⟩ := h6 hc
      refine ⟨q', by rw [hc, h5.mpr hc], ?_⟩
      rw [hq, hq']
      show UInt8.ofNat (x ^^^ 128).toNat = UInt8.ofNat x.toNat ^^^ 128
      simp

set_option maxRecDepth 20000 in
/-- A response that was routed. -/
example (env : Env) : ∃ q, Package.decode env none {} ⟨1 :: [0, 32, 16, 0, 3, 0, 5, 0, 0, 1, 0, 2, 0, 64] ++ 226 :: [216, 0, 0, 169, 0], []⟩ = .ret q 0 none ∧
    q.peerAddress = 1 ∧ q.recipientAddress = 2 :=
  ⟨{ respPackage with route := go!"1", headerLength := 16, peerAddress := 1, recipientAddress := 2, timeToLive := 64, headerCheckSum := 226 },
    by with_unfolding_all rfl, rfl, rfl⟩

/-- Altering bits of the low byte. -/
theorem xor_low {a b k : Nat} (ha : a < 256) (hk : k < 256) : (a + 256 * b) ^^^ k = (a ^^^ k) + 256 * b := by
  have hx : a ^^^ k < 2 ^ 8 := Nat.xor_lt_two_pow (n := 8) ha hk
  apply Nat.eq_of_testBit_eq
  intro j
  have e1 : a + 256 * b = 2 ^ 8 * b + a := by omega
  have e2 : (a ^^^ k) + 256 * b = 2 ^ 8 * b + (a ^^^ k) := by omega
  rw [e2, Nat.testBit_xor, e1, Nat.testBit_two_pow_mul_add _ ha, Nat.testBit_two_pow_mul_add _ hx]
  by_cases hj : j < 8
  · simp [hj, Nat.testBit_xor]
  · have : k.testBit j = false := Nat.testBit_lt_two_pow (lt_of_lt_of_le hk (by
      calc 256 = 2 ^ 8 := rfl
        _ ≤ 2 ^ j := Nat.pow_le_pow_right (by omega) (by omega)))
    simp [hj, this]

/-- … and in every accepted response with a body of 4094 bytes the first bit of the body and the last of its checksum: the response is
accepted all the same, for another packet. -/
theorem C90_false_long (env : Env) (key : Option SecretKey) (p q : Package) (h m tl sp : Bytes) (x lo : UInt8) (r : PtResponse)
    (hh : Frame.Honest (h ++ x :: m ++ lo :: tl)) (hlen : h.length = Frame.hl (h ++ x :: m ++ lo :: tl)) (hm : m.length = 4093)
    (hf : Frame.fdl (h ++ x :: m ++ lo :: tl) = 4094) (he : ¬ Frame.Encrypted (h ++ x :: m ++ lo :: tl))
    (hd : Package.decode env key p ⟨h ++ x :: m ++ lo :: tl, sp⟩ = .ret q 0 none) (hq : q.servicesFrameData = some (.resp r)) :
    Crc.dist (h ++ x :: m ++ lo :: tl) (h ++ (x ^^^ 128) :: m ++ (lo ^^^ 1) :: tl) = 2 ∧
    ∃ q', Package.decode env key p ⟨h ++ (x ^^^ 128) :: m ++ (lo ^^^ 1) :: tl, sp⟩ = .ret q' 0 none ∧
      q'.servicesFrameData = some (.resp { r with responsePacketID := r.responsePacketID ^^^ 128 }) := by
  have h10 : 11 ≤ h.length := by
    rw [hlen, hh.1]; unfold Frame.hcsPos; split <;> omega
  have same : ∀ i, i < h.length → byteAt (h ++ (x ^^^ 128) :: m ++ (lo ^^^ 1) :: tl) i = byteAt (h ++ x :: m ++ lo :: tl) i := by
    intro i hi
    unfold byteAt
    rw [List.append_assoc, List.append_assoc, List.getD_append _ _ _ _ hi, List.getD_append _ _ _ _ hi]
  have e2 := same 2 (by omega)
  have e3 : Frame.hl (h ++ (x ^^^ 128) :: m ++ (lo ^^^ 1) :: tl) = Frame.hl (h ++ x :: m ++ lo :: tl) := same 3 (by omega)
  have e4 : Frame.fdl (h ++ (x ^^^ 128) :: m ++ (lo ^^^ 1) :: tl) = 4094 := by
    rw [← hf]; unfold Frame.fdl; rw [same 5 (by omega), same 6 (by omega)]
  have e5 : Frame.pt (h ++ (x ^^^ 128) :: m ++ (lo ^^^ 1) :: tl) = Frame.pt (h ++ x :: m ++ lo :: tl) := same 9 (by omega)
  have e6 : ¬ Frame.Encrypted (h ++ (x ^^^ 128) :: m ++ (lo ^^^ 1) :: tl) := by unfold Frame.Encrypted at he ⊢; rw [e2]; exact he
  have p1 : Frame.hcsPos (h ++ x :: m ++ lo :: tl) + 1 = h.length := by rw [hlen, hh.1]
  have p2 : Frame.hcsPos (h ++ (x ^^^ 128) :: m ++ (lo ^^^ 1) :: tl) = Frame.hcsPos (h ++ x :: m ++ lo :: tl) := by
    unfold Frame.hcsPos Frame.Routed; rw [e2]
  have r1 : ∀ (u v : UInt8), (h ++ u :: m ++ v :: tl).drop h.length = u :: m ++ v :: tl := by
    intro u v; rw [List.append_assoc]; exact List.drop_left' rfl
  have q1 : Frame.rest (h ++ x :: m ++ lo :: tl) = x :: m ++ lo :: tl := by unfold Frame.rest; rw [p1, r1]
  have q2 : Frame.rest (h ++ (x ^^^ 128) :: m ++ (lo ^^^ 1) :: tl) = (x ^^^ 128) :: m ++ (lo ^^^ 1) :: tl := by
    unfold Frame.rest; rw [p2, p1, r1]
  have tk : ∀ (u v : UInt8), (u :: m ++ v :: tl).take 4094 = u :: m := fun u v => List.take_left' (by simp [hm])
  have dr : ∀ (u v : UInt8), (u :: m ++ v :: tl).drop 4094 = v :: tl := fun u v => List.drop_left' (by simp [hm])
  have zz : ∀ (u v : UInt8), zeros (4094 - (u :: m ++ v :: tl).length) = [] := by
    intro u v
    have : 4094 - (u :: m ++ v :: tl).length = 0 := by simp [hm]
    rw [this]; rfl
  have b1 : Frame.body (h ++ x :: m ++ lo :: tl) = x :: m := by unfold Frame.body; rw [q1, hf, tk, zz, List.append_nil]
  have b2 : Frame.body (h ++ (x ^^^ 128) :: m ++ (lo ^^^ 1) :: tl) = (x ^^^ 128) :: m := by unfold Frame.body; rw [q2, e4, tk, zz, List.append_nil]
  have a1 : Frame.after (h ++ x :: m ++ lo :: tl) = lo :: tl := by unfold Frame.after; rw [q1, hf, dr]
  have a2 : Frame.after (h ++ (x ^^^ 128) :: m ++ (lo ^^^ 1) :: tl) = (lo ^^^ 1) :: tl := by unfold Frame.after; rw [q2, e4, dr]
  have ho := success_outcome hd
  -- the content
  obtain ⟨d, hcont, hqd⟩ := ((decode_frame env key p ⟨h ++ x :: m ++ lo :: tl, sp⟩).2 q 0 none hd).2.2 rfl
  have hdr : d = .resp r := by
    rw [hqd] at hq
    exact Option.some.inj hq
  have c1 : Frame.clear key (h ++ x :: m ++ lo :: tl) = .ok (x :: m) := by unfold Frame.clear; rw [if_neg he, b1]
  have c2 : Frame.clear key (h ++ (x ^^^ 128) :: m ++ (lo ^^^ 1) :: tl) = .ok ((x ^^^ 128) :: m) := by unfold Frame.clear; rw [if_neg e6, b2]
  have hpt : Frame.pt (h ++ x :: m ++ lo :: tl) ≠ 1 ∧ PtResponse.decode env {} (x :: m) = .ok r := by
    unfold Frame.content at hcont
    rw [c1, hdr] at hcont
    by_cases hp : Frame.pt (h ++ x :: m ++ lo :: tl) = 1
    · simp only [bind, Except.bind, if_pos hp] at hcont
      split at hcont
      · cases hcont
      · cases hcont
    · refine ⟨hp, ?_⟩
      simp only [bind, Except.bind, if_neg hp] at hcont
      split at hcont
      · cases hcont
      · rename_i y hy
        cases hcont
        exact hy
  have hr' : PtResponse.decode env {} ((x ^^^ 128) :: m) = .ok { r with responsePacketID := r.responsePacketID ^^^ 128 } := by
    rw [C81_response]
    obtain ⟨g1, g2, g3, g4⟩ := (C81_response env r (x :: m)).mp hpt.2
    match m, hm with
    | y :: z :: m, _ =>
      refine ⟨by simp, ?_, g3, ?_⟩
      · have g2' : r.responsePacketID.toNat = x.toNat + 256 * y.toNat := g2
        show (r.responsePacketID ^^^ 128).toNat = (x ^^^ 128).toNat + 256 * y.toNat
        rw [UInt16.toNat_xor, g2', UInt8.toNat_xor]
        exact xor_low (UInt8.toNat_lt x) (by decide)
      · rcases g4 with ⟨g4, g5⟩ | ⟨g4, g5⟩
        · exact .inl ⟨by simpa using g4, g5⟩
        · exact .inr ⟨by simpa using g4, g5⟩
  have hcont' : Frame.content env key (h ++ (x ^^^ 128) :: m ++ (lo ^^^ 1) :: tl) = .ok (.resp { r with responsePacketID := r.responsePacketID ^^^ 128 }) := by
    unfold Frame.content
    rw [c2, e5]
    simp only [bind, Except.bind, if_neg hpt.1, hr']
    rfl
  have ho' : Frame.outcome env key ⟨h ++ (x ^^^ 128) :: m ++ (lo ^^^ 1) :: tl, sp⟩ = .code 0 := by
    have hend : Frame.headEnd (h ++ x :: m ++ lo :: tl) = h.length - 1 := by unfold Frame.headEnd; rw [← hlen, if_neg (by omega)]
    have hend' : Frame.headEnd (h ++ (x ^^^ 128) :: m ++ (lo ^^^ 1) :: tl) = h.length - 1 := by unfold Frame.headEnd; rw [e3, ← hlen, if_neg (by omega)]
    have hb := hh.2
    rw [hf] at hb
    have hbe : Frame.bodyEnd (h ++ x :: m ++ lo :: tl) = h.length + 4094 := by unfold Frame.bodyEnd; rw [hf, ← hlen]; omega
    have hbe' : Frame.bodyEnd (h ++ (x ^^^ 128) :: m ++ (lo ^^^ 1) :: tl) = h.length + 4094 := by unfold Frame.bodyEnd; rw [e3, e4, ← hlen]; omega
    have hcov : ∀ (u v : UInt8), ((h ++ u :: m ++ v :: tl ++ sp).take (h.length + 4094)).drop h.length = u :: m := by
      intro u v
      rw [List.drop_take, Nat.add_sub_cancel_left, List.append_assoc, List.append_assoc, List.drop_left' rfl]
      exact List.take_left' (by simp [hm])
    have thd : ∀ (u v : UInt8), (h ++ u :: m ++ v :: tl ++ sp).take (h.length - 1) = h.take (h.length - 1) := by
      intro u v
      rw [List.append_assoc, List.append_assoc, List.take_append_of_le_length (by omega)]
    have hl2 : ∀ (u v : UInt8), (h ++ u :: m ++ v :: tl).length = h.length + 4094 + tl.length + 1 := by
      intro u v; simp only [List.length_append, List.length_cons, hm]; omega
    have hhl : Frame.hl (h ++ x :: m ++ lo :: tl) = h.length := hlen.symm
    have s1 : Frame.sfrcs (h ++ x :: m ++ lo :: tl) = lo.toNat + 256 * byteAt (lo :: tl) 1 := by unfold Frame.sfrcs; rw [a1]; rfl
    have s2 : Frame.sfrcs (h ++ (x ^^^ 128) :: m ++ (lo ^^^ 1) :: tl) = (lo ^^^ 1).toNat + 256 * byteAt (lo :: tl) 1 := by unfold Frame.sfrcs; rw [a2]; rfl
    have hpb : byteAt (h ++ (x ^^^ 128) :: m ++ (lo ^^^ 1) :: tl) (Frame.hcsPos (h ++ x :: m ++ lo :: tl)) =
        byteAt (h ++ x :: m ++ lo :: tl) (Frame.hcsPos (h ++ x :: m ++ lo :: tl)) := same _ (by omega)
    have hne1 : ∀ (u v : UInt8), (u :: m ++ v :: tl = []) = False := by intros; simp
    have hne2 : ∀ (v : UInt8), (v :: tl = []) = False := by intros; simp
    unfold Frame.outcome Slice.all at ho ⊢
    simp only [p2, hend, hend', q1, q2, a1, a2, e5, hcont, hcont', hbe, hbe', e3, hhl, s1, s2, hcov, thd, hl2, hpb, hne1, hne2, List.length_append] at ho ⊢
    have hc : ((lo ^^^ 1).toNat + 256 * byteAt (lo :: tl) 1 ≠ (crc16 ((x ^^^ 128) :: m)).toNat) ↔
        lo.toNat + 256 * byteAt (lo :: tl) 1 ≠ (crc16 (x :: m)).toNat := by
      rw [Crc.crc16_ends x m hm, UInt16.toNat_xor, UInt8.toNat_xor]
      show (lo.toNat ^^^ 1) + _ ≠ (crc16 (x :: m)).toNat ^^^ 1 ↔ _
      rw [← xor_low (UInt8.toNat_lt lo) (by decide : 1 < 256)]
      constructor
      · intro h1 h2; exact h1 (by rw [h2])
      · intro h1 h2
        apply h1
        have := congrArg (· ^^^ 1) h2
        simpa [Nat.xor_assoc] using this
    simp only [hc]
    exact ho
  refine ⟨?_, ?_⟩
  · have zero : ∀ b : Bytes, Crc.dist b b = 0 := fun b => Crc.dif_self _
    rw [show h ++ x :: m ++ lo :: tl = h ++ ([x] ++ (m ++ ([lo] ++ tl))) by simp,
      show h ++ (x ^^^ 128) :: m ++ (lo ^^^ 1) :: tl = h ++ ([x ^^^ 128] ++ (m ++ ([lo ^^^ 1] ++ tl))) by simp,
      Crc.dist_append rfl, Crc.dist_append (by rfl), Crc.dist_append rfl, Crc.dist_append (by rfl), (one_flipped x).1, (one_flipped lo).2, zero, zero, zero]
  · have h1 := decode_frame env key p ⟨h ++ (x ^^^ 128) :: m ++ (lo ^^^ 1) :: tl, sp⟩
    rw [ho'] at h1
    cases hd' : Package.decode env key p ⟨h ++ (x ^^^ 128) :: m ++ (lo ^^^ 1) :: tl, sp⟩ with
    | panic => rw [hd'] at h1; exact absurd h1.1 (by simp [DecodeResult.outcome])
    | ret q' code err =>
      rw [hd'] at h1
      obtain ⟨h3, h4⟩ := h1
      have hc : code = 0 := by simpa [DecodeResult.outcome] using h3
      obtain ⟨h5, _, h6⟩ := h4 q' code err rfl
      obtain ⟨d', hd2, hq'⟩ := h6 hc
      refine ⟨q', by rw [hc, h5.mpr hc], ?_⟩
      rw [hq']
      rw [show Frame.content env key (Slice.data ⟨h ++ (x ^^^ 128) :: m ++ (lo ^^^ 1) :: tl, sp⟩) = _ from hcont'] at hd2
      cases hd2
      rfl

/-- A response of 4094 bytes: one record with one subrecord of unknown type. -/
def longBody : Bytes := [216, 0, 0] ++ [244, 15, 1, 0, 0, 1, 1] ++ [200, 241, 15] ++ List.replicate 4081 0

def longFrame : Bytes := [1, 0, 0, 11, 0, 254, 15, 5, 0, 0, 181] ++ 216 :: longBody.tail ++ 209 :: [3]

set_option maxRecDepth 100000 in
/-- It meets the hypotheses. -/
example : Frame.Honest longFrame ∧ Frame.hl longFrame = 11 ∧ longBody.tail.length = 4093 ∧ Frame.fdl longFrame = 4094 ∧ ¬ Frame.Encrypted longFrame ∧
    ∃ q r, Package.decode ⟨fun _ => 0⟩ none {} ⟨longFrame, []⟩ = .ret q 0 none ∧ q.servicesFrameData = some (.resp r) ∧ r.responsePacketID = 216 := by
  refine ⟨by decide +kernel, by decide +kernel, by decide +kernel, by decide +kernel, by decide +kernel, ?_⟩
  have ho : Frame.outcome ⟨fun _ => 0⟩ none ⟨longFrame, []⟩ = .code 0 := by decide +kernel
  have hc : (match Frame.content ⟨fun _ => 0⟩ none longFrame with | .ok (.resp r) => r.responsePacketID == 216 | _ => false) = true := by decide +kernel
  obtain ⟨h1, h2⟩ := decode_frame ⟨fun _ => 0⟩ none {} ⟨longFrame, []⟩
  rw [ho] at h1
  cases hd : Package.decode ⟨fun _ => 0⟩ none {} ⟨longFrame, []⟩ with
  | panic => rw [hd] at h1; exact absurd h1 (by simp [DecodeResult.outcome])
  | ret q code err =>
    rw [hd] at h1
    have hcode : code = 0 := by simpa [DecodeResult.outcome] using h1
    obtain ⟨h3, _, h4⟩ := h2 q code err hd
    obtain ⟨d, hd2, hq⟩ := h4 hcode
    rw [show Frame.content ⟨fun _ => 0⟩ none longFrame = .ok d from hd2] at hc
    cases d with
    | sds s => simp at hc
    | resp r => exact ⟨q, r, by rw [hcode, h3.mpr hcode], by rw [hq]; rfl, by simpa using hc⟩

end Egts
