import Verif.Proofs.Truncate

/-! # Properties of `Package.Decode` (C05, C11-C13) -/

namespace Egts

/-! ## C12 -/

/-- Every call of `Decode`, whatever the input, its spare capacity, the key and the receiver, ends as
the table of stages `Frame.outcome` says. -/
theorem C12_stages (env : Env) (key : Option SecretKey) (p : Package) (c : Slice) :
    (Package.decode env key p c).outcome = Frame.outcome env key c := (decode_frame env key p c).1

/-- The code is 0 exactly when there is no error, and is one of six. -/
theorem C12_codes (env : Env) (key : Option SecretKey) (p q : Package) (c : Slice) (code : UInt8) (err : Option Err)
    (h : Package.decode env key p c = .ret q code err) :
    (err = none ↔ code = 0) ∧ code ∈ ([0, 129, 131, 132, 133, 137] : List UInt8) := by
  obtain ⟨h1, h2⟩ := decode_frame env key p c
  refine ⟨(h2 q code err h).1, ?_⟩
  rw [h] at h1
  simp only [DecodeResult.outcome] at h1
  unfold Frame.outcome at h1
  simp only at h1
  split at h1 <;> [skip; split at h1 <;> [skip; split at h1 <;> [skip; split at h1 <;> [skip; split at h1 <;> [skip;
    split at h1 <;> [skip; split at h1 <;> [skip; split at h1 <;> [skip; split at h1]]]]]]]]
  all_goals cases h1
  all_goals decide

/-- On success the package is the one the frame describes: every header field at its position, and the
decoded body. -/
theorem C12_success_package (env : Env) (key : Option SecretKey) (p q : Package) (c : Slice) (err : Option Err)
    (h : Package.decode env key p c = .ret q 0 err) :
    err = none ∧ ∃ d, Frame.content env key c.data = .ok d ∧ q = Frame.package p c.data d := by
  obtain ⟨_, h2⟩ := decode_frame env key p c
  exact ⟨(h2 q 0 err h).1.mpr rfl, (h2 q 0 err h).2.2 rfl⟩

/-- Even when decoding fails, from ten bytes on the packet identifier (which the server puts in its
reply) is the one in the frame. -/
theorem C12_identifier (env : Env) (key : Option SecretKey) (p q : Package) (c : Slice) (code : UInt8) (err : Option Err)
    (h : Package.decode env key p c = .ret q code err) (hl : 10 ≤ c.data.length) :
    q.packetIdentifier.toNat = Frame.pid c.data ∧ q.packetType.toNat = Frame.pt c.data := by
  obtain ⟨_, h2⟩ := decode_frame env key p c
  obtain ⟨e1, e2⟩ := (h2 q code err h).2.1 hl
  have b7 : byteAt c.data 7 < 256 := UInt8.toNat_lt _
  have b8 : byteAt c.data 8 < 256 := UInt8.toNat_lt _
  rw [e1, e2, UInt16.toNat_ofNat', UInt8.toNat_ofNat', Nat.mod_eq_of_lt (by unfold Frame.pid; omega), Nat.mod_eq_of_lt (pt_lt _)]
  exact ⟨rfl, rfl⟩

/-- A response frame (packet 5 confirms packet 216 with result 0): each of the six codes and both
panics are reached by altering it. -/
def respFrame : Bytes := [1, 0, 0, 11, 0, 3, 0, 5, 0, 0, 63, 216, 0, 0, 169, 0]

/-- The package in that frame, without its routing fields. -/
def respPackage : Package :=
  { protocolVersion := 1, prefix_ := go!"00", route := go!"0", encryptionAlg := go!"00", compression := go!"0",
    priority := go!"00", headerLength := 11, frameDataLength := 3, packetIdentifier := 5, packetType := 0,
    headerCheckSum := 63, servicesFrameData := some (.resp { responsePacketID := 216, processingResult := 0 }),
    servicesFrameDataCheckSum := 169 }

set_option maxRecDepth 20000 in
example (env : Env) : Frame.outcome env none ⟨respFrame, []⟩ = .code 0 := by with_unfolding_all rfl
set_option maxRecDepth 20000 in
example (env : Env) : Frame.outcome env none ⟨respFrame.take 10, []⟩ = .code 131 := by with_unfolding_all rfl
set_option maxRecDepth 20000 in
example (env : Env) : Frame.outcome env none ⟨respFrame.set 10 64, []⟩ = .code 137 := by with_unfolding_all rfl
set_option maxRecDepth 20000 in
example (env : Env) : Frame.outcome env none ⟨respFrame.take 11, []⟩ = .code 132 := by with_unfolding_all rfl
set_option maxRecDepth 20000 in
example (env : Env) : Frame.outcome env none ⟨respFrame.take 14, []⟩ = .code 129 := by with_unfolding_all rfl
set_option maxRecDepth 20000 in
example (env : Env) : Frame.outcome env none ⟨respFrame.set 14 168, []⟩ = .code 137 := by with_unfolding_all rfl
set_option maxRecDepth 20000 in
example (env : Env) : Frame.outcome env none ⟨[1, 0, 0, 11, 0, 3, 0, 5, 0, 2, crc8 [1, 0, 0, 11, 0, 3, 0, 5, 0, 2], 0], []⟩ = .code 133 := by
  with_unfolding_all rfl
set_option maxRecDepth 20000 in
example (env : Env) : Frame.outcome env none ⟨respFrame.set 3 0, []⟩ = .panic := by with_unfolding_all rfl

/-! ## C11 -/

/-- Full statement of C11 (not provable): `∀ env key p c, Package.decode env key p c ≠ .panic`.
Sixteen bytes whose header length is zero panic: the checksum is taken over 255 bytes. -/
theorem C11_false (env : Env) : ∃ c : Slice, ∀ key p, Package.decode env key p c = .panic := by
  refine ⟨⟨respFrame.set 3 0, []⟩, fun key p => ?_⟩
  have h := (decode_frame env key p ⟨respFrame.set 3 0, []⟩).1
  have h2 : Frame.outcome env key ⟨respFrame.set 3 0, []⟩ = .panic := by with_unfolding_all rfl
  rw [h2] at h
  cases hd : Package.decode env key p ⟨respFrame.set 3 0, []⟩ with
  | panic => rfl
  | ret q c e => rw [hd] at h; cases h

/-- Exactly which inputs panic: the header is all there, and either the checksummed header runs past
the slice's capacity, or everything up to the body checksum is fine but the checksummed body ends
before it begins (HL+FDL overflowed) or past the capacity. -/
theorem C11_panics_iff (env : Env) (key : Option SecretKey) (p : Package) (c : Slice) :
    Package.decode env key p c = .panic ↔
      Frame.hcsPos c.data < c.data.length ∧
      (c.all.length < Frame.headEnd c.data ∨
       (byteAt c.data (Frame.hcsPos c.data) = (crc8 (c.all.take (Frame.headEnd c.data))).toNat ∧
        (Frame.pt c.data = 0 ∨ Frame.pt c.data = 1) ∧ (∃ d, Frame.content env key c.data = .ok d) ∧
        Frame.hcsPos c.data + 1 + Frame.fdl c.data < c.data.length ∧
        (Frame.bodyEnd c.data < Frame.hl c.data ∨ c.all.length < Frame.bodyEnd c.data))) := by
  have h := (decode_frame env key p c).1
  have e : Package.decode env key p c = .panic ↔ Frame.outcome env key c = .panic := by
    rw [← h]
    cases Package.decode env key p c with
    | panic => simp [DecodeResult.outcome]
    | ret => simp [DecodeResult.outcome]
  rw [e]
  have hr : Frame.rest c.data = [] ↔ c.data.length ≤ Frame.hcsPos c.data + 1 := by
    unfold Frame.rest; exact List.drop_eq_nil_iff
  have ha : Frame.after c.data = [] ↔ c.data.length ≤ Frame.hcsPos c.data + 1 + Frame.fdl c.data := by
    unfold Frame.after Frame.rest
    rw [List.drop_drop]; exact List.drop_eq_nil_iff
  have hc : (Frame.content env key c.data).isOk = false ↔ ¬ ∃ d, Frame.content env key c.data = .ok d := by
    cases Frame.content env key c.data <;> simp [Except.isOk, Except.toBool]
  unfold Frame.outcome
  simp only [hr, ha]
  by_cases h1 : c.data.length ≤ Frame.hcsPos c.data
  · rw [if_pos h1]; simp; omega
  rw [if_neg h1]
  by_cases h2 : c.all.length < Frame.headEnd c.data
  · rw [if_pos h2]; simp [h2]; omega
  rw [if_neg h2]
  by_cases h3 : byteAt c.data (Frame.hcsPos c.data) ≠ (crc8 (c.all.take (Frame.headEnd c.data))).toNat
  · rw [if_pos h3]; simp [h2, h3]
  rw [if_neg h3]
  by_cases h4 : c.data.length ≤ Frame.hcsPos c.data + 1
  · rw [if_pos h4]; simp [h2]; omega
  rw [if_neg h4]
  by_cases h5 : Frame.pt c.data ≠ 0 ∧ Frame.pt c.data ≠ 1
  · rw [if_pos h5]; simp [h2, h5]
  rw [if_neg h5]
  by_cases h6 : (Frame.content env key c.data).isOk = false
  · rw [if_pos h6]; simp only [hc.mp h6]; simp [h2]
  rw [if_neg h6]
  by_cases h7 : c.data.length ≤ Frame.hcsPos c.data + 1 + Frame.fdl c.data
  · rw [if_pos h7]; simp [h2]; omega
  rw [if_neg h7]
  by_cases h8 : Frame.bodyEnd c.data < Frame.hl c.data ∨ c.all.length < Frame.bodyEnd c.data
  · rw [if_pos h8]
    simp only [true_iff]
    exact ⟨by omega, .inr ⟨by omega, by omega, Classical.not_not.mp (fun h => h6 (hc.mpr h)), by omega, h8⟩⟩
  · rw [if_neg h8]
    constructor
    · intro h; split at h <;> cases h
    · rintro ⟨_, h | ⟨_, _, _, _, h⟩⟩
      · exact absurd h h2
      · exact absurd h h8

/-- No panic on any input whose declared header length is the real one and whose declared lengths add
up to less than 65536, nor on any input too short for a header. Missing: all other inputs, see
`C11_false` and, for exactly which of them panic, `C11_panics_iff`. -/
theorem C11_no_panic_partial (env : Env) (key : Option SecretKey) (p : Package) (c : Slice)
    (h : Frame.Honest c.data ∨ c.data.length ≤ Frame.hcsPos c.data) : Package.decode env key p c ≠ .panic := by
  intro hp
  obtain ⟨h0, hp⟩ := (C11_panics_iff env key p c).mp hp
  rcases h with ⟨h1, h2⟩ | h
  · have hend : Frame.headEnd c.data = Frame.hcsPos c.data := by unfold Frame.headEnd; rw [h1]; simp
    have hbe : Frame.bodyEnd c.data = Frame.hcsPos c.data + 1 + Frame.fdl c.data := by
      unfold Frame.bodyEnd; rw [h1] at h2 ⊢; exact Nat.mod_eq_of_lt h2
    have hl : c.all.length = c.data.length + c.spare.length := by simp [Slice.all]
    rcases hp with hp | ⟨_, _, _, h3, h4⟩ <;> omega
  · omega

example : Frame.Honest respFrame := by decide +kernel

/-- The other way to panic: header length 11, frame data length 65530. The sum overflows to 5, and the
slice bounds 11:5 are invalid. Any frame with such lengths that is otherwise fine panics. (A case is
`C06_false` in `Props/Packages.lean`.) -/
theorem C11_overflow (env : Env) (key : Option SecretKey) (p : Package) (c : Slice)
    (h1 : Frame.hl c.data = Frame.hcsPos c.data + 1) (h2 : 65536 ≤ Frame.hl c.data + Frame.fdl c.data)
    (h3 : Frame.total c.data ≤ c.data.length)
    (h4 : byteAt c.data (Frame.hcsPos c.data) = (crc8 (c.data.take (Frame.hcsPos c.data))).toNat)
    (h5 : Frame.pt c.data = 0 ∨ Frame.pt c.data = 1) (h6 : ∃ d, Frame.content env key c.data = .ok d) :
    Package.decode env key p c = .panic := by
  have hf := fdl_lt c.data
  have hb := hcsPos_bounds c.data
  unfold Frame.total at h3
  have hend : Frame.headEnd c.data = Frame.hcsPos c.data := by unfold Frame.headEnd; rw [h1]; simp
  refine (C11_panics_iff env key p c).mpr ⟨by omega, .inr ⟨?_, h5, h6, by omega, .inl ?_⟩⟩
  · rw [h4, hend, take_all (by omega)]
  · unfold Frame.bodyEnd; omega

/-! ## C05 -/

set_option maxRecDepth 20000 in
/-- Full statement of C05 (not provable): no strict prefix of an accepted frame is accepted. The
response frame above ends in a zero byte; without it, it is accepted just the same. -/
theorem C05_false (env : Env) : ∃ b : Bytes, ∃ n, n < b.length ∧ Frame.Honest b ∧ b.length = Frame.total b ∧
    ∀ p, (∃ q, Package.decode env none p ⟨b, []⟩ = .ret q 0 none) ∧ (∃ q, Package.decode env none p ⟨b.take n, []⟩ = .ret q 0 none) := by
  refine ⟨respFrame, 15, by decide, by decide +kernel, by decide +kernel, 
    fun p => ⟨?_, ?_⟩⟩ <;>
    exact ⟨{ respPackage with peerAddress := p.peerAddress, recipientAddress := p.recipientAddress, timeToLive := p.timeToLive },
      by with_unfolding_all rfl⟩

/-- A frame without all of its declared body and at least one byte of the body checksum is never
accepted: whatever the header length field says, whatever memory follows the slice. In particular no
prefix of an accepted frame that lacks two bytes or more. Missing: the prefix lacking just the last
byte, see `C05_false` and `C05_prefix_codes`. -/
theorem C05_truncated_partial (env : Env) (key : Option SecretKey) (p q : Package) (c : Slice) (code : UInt8) (err : Option Err)
    (h : c.data.length + 2 ≤ Frame.total c.data) (hd : Package.decode env key p c = .ret q code err) :
    code ≠ 0 ∧ err ≠ none := by
  have h1 := outcome_short env key c (by unfold Frame.total at h; omega)
  rw [← (decode_frame env key p c).1, hd] at h1
  have h2 := ((decode_frame env key p c).2 q code err hd).1
  have : code ≠ 0 := fun h => h1 (by rw [h]; rfl)
  exact ⟨this, fun h => this (h2.mp h)⟩

example : (respFrame.take 14).length + 2 ≤ Frame.total (respFrame.take 14) := by decide +kernel

/-- For frames whose declared lengths are right: what `Decode` says of every strict prefix of an
accepted one, whatever lies behind the slice. The prefix lacking only the last byte is accepted exactly
if that byte is zero. -/
theorem C05_prefix_codes (env : Env) (key : Option SecretKey) (b sp : Bytes) (hh : Frame.Honest b) (hb : b.length = Frame.total b)
    (p0 q0 : Package) (h : Package.decode env key p0 ⟨b, sp⟩ = .ret q0 0 none) (n : Nat) (hn : n < b.length) (sp' : Bytes) (p : Package) :
    ∃ q code err, Package.decode env key p ⟨b.take n, sp'⟩ = .ret q code err ∧ (err = none ↔ code = 0) ∧
      code = if n ≤ Frame.hcsPos b then 131
             else if n = Frame.hcsPos b + 1 then 132
             else if n ≤ Frame.hcsPos b + 1 + Frame.fdl b then 129
             else if byteAt b (b.length - 1) = 0 then 0 else 137 := by
  have h0 := (decode_frame env key p0 ⟨b, sp⟩).1
  rw [h] at h0
  have h1 := outcome_prefix (h0.symm) hh hb hn sp'
  have h2 := decode_frame env key p ⟨b.take n, sp'⟩
  cases hd : Package.decode env key p ⟨b.take n, sp'⟩ with
  | panic => rw [hd, h1] at h2; cases h2.1
  | ret q c e =>
    refine ⟨q, c, e, rfl, (h2.2 q c e hd).1, ?_⟩
    rw [hd, h1] at h2
    have := h2.1
    simp only [DecodeResult.outcome, Frame.Outcome.code.injEq] at this
    exact this

set_option maxRecDepth 20000 in
example (env : Env) : ∃ q, Package.decode env none {} ⟨respFrame, []⟩ = .ret q 0 none :=
  ⟨respPackage, by with_unfolding_all rfl⟩

/-! ## C13 -/

set_option maxRecDepth 20000 in
/-- Full statement of C13 (not provable): as `C13_reuse_partial`, with equal packages for unrouted
frames too. The response frame decoded into a package with a peer address keeps that address. -/
theorem C13_false (env : Env) : ∃ (c : Slice) (p1 p2 q1 q2 : Package), Package.decode env none p1 c = .ret q1 0 none ∧
    Package.decode env none p2 c = .ret q2 0 none ∧ q1.peerAddress ≠ q2.peerAddress := by
  refine ⟨⟨respFrame, []⟩, {}, { peerAddress := 7 }, respPackage, { respPackage with peerAddress := 7 },
    by with_unfolding_all rfl, by with_unfolding_all rfl, by decide +kernel⟩

/-- Decoding into any two receivers ends the same way, and on success gives the same package if the
frame carries routing fields, and the same package except for the three routing fields if not. Those
are the receiver's. -/
theorem C13_reuse_partial (env : Env) (key : Option SecretKey) (p1 p2 : Package) (c : Slice) :
    (Package.decode env key p1 c).outcome = (Package.decode env key p2 c).outcome ∧
    ∀ q1 q2 e1 e2, Package.decode env key p1 c = .ret q1 0 e1 → Package.decode env key p2 c = .ret q2 0 e2 →
      (Frame.Routed c.data → q1 = q2) ∧
      (¬ Frame.Routed c.data →
        q2 = { q1 with peerAddress := p2.peerAddress, recipientAddress := p2.recipientAddress, timeToLive := p2.timeToLive }) := by
  refine ⟨by rw [C12_stages, C12_stages], fun q1 q2 e1 e2 h1 h2 => ?_⟩
  obtain ⟨_, d1, hd1, r1⟩ := C12_success_package env key p1 q1 c e1 h1
  obtain ⟨_, d2, hd2, r2⟩ := C12_success_package env key p2 q2 c e2 h2
  rw [hd1] at hd2; cases hd2
  subst r1 r2
  refine ⟨fun hr => ?_, fun hr => ?_⟩
  · unfold Frame.package
    simp only [if_pos hr]
  · unfold Frame.package
    simp only [if_neg hr]

end Egts
