import Verif.Proofs.Ignored
import Verif.Proofs.Concurrent
import Verif.Props.Numbers
import Verif.Proofs.ServerExamples

/-! # What the header says about the body and the way of a packet (C103) -/

namespace Egts

/-! ## C103 -/

/-- Two packets that differ in protocol version, key number, prefix, routing fields, encryption algorithm, compression, priority or header
encoding only: `Decode` ends in the same way for both, and the data are the same. -/
theorem C103_header_ignored (env : Env) (key : Option SecretKey) (f g : Bytes) (h : SameData f g) (p p' : Package) (sp sp' : Bytes) :
    (Package.decode env key p ⟨f, sp⟩).outcome = (Package.decode env key p' ⟨g, sp'⟩).outcome ∧
    ∀ q q' err err', Package.decode env key p ⟨f, sp⟩ = .ret q 0 err → Package.decode env key p' ⟨g, sp'⟩ = .ret q' 0 err' →
      q.packetIdentifier = q'.packetIdentifier ∧ q.packetType = q'.packetType ∧ q.servicesFrameData = q'.servicesFrameData := by
  obtain ⟨h1, h2⟩ := decode_frame env key p ⟨f, sp⟩
  obtain ⟨h1', h2'⟩ := decode_frame env key p' ⟨g, sp'⟩
  refine ⟨by rw [h1, h1']; exact h.outcome env key sp sp', fun q q' err err' hq hq' => ?_⟩
  obtain ⟨_, _, a⟩ := h2 _ _ _ hq
  obtain ⟨_, _, b⟩ := h2' _ _ _ hq'
  obtain ⟨d, g1, g2⟩ := a rfl
  obtain ⟨d', g1', g2'⟩ := b rfl
  have g1 : Frame.content env key f = .ok d := g1
  have g1' : Frame.content env key g = .ok d' := g1'
  rw [h.content, g1', Except.ok.injEq] at g1
  rw [g2, g2']
  simp only [Frame.package]
  rw [g1, h.pid, h.pt]
  exact ⟨rfl, rfl, rfl⟩

/-- Every packet with an intact header has such variants: with any version, key number, prefix, priority, header encoding, compressed or not,
with any routing fields or none, and any number of the encryption algorithm unless it is 0. -/
theorem C103_any_header (prv skid flags he : UInt8) (routing f : Bytes) (hh : HeaderOk f) (hl : Frame.fdl f + 16 < 65536) (ho : Frame.Honest f)
    (hr : (flags.toNat / 32 % 2 = 1 ∧ routing.length = 5) ∨ (flags.toNat / 32 % 2 = 0 ∧ routing = []))
    (he' : flags.toNat / 8 % 4 = 0 ↔ ¬ Frame.Encrypted f) : SameData f (relabel prv skid flags he routing f) :=
  relabel_same prv skid flags he routing hh hl ho hr he'

theorem handleFrom_nothing (env : Env) (ce : ConnEnv) (e : End) (i : Nat) (c : UInt32) :
    handleFrom env ce e i c [] = match e with | .blocked => [] | .error => [.close] | .eof => [.waitTimer, .close] := by
  cases e <;> rfl

/-- The receiver stores and answers the same for such packets, on the whole connection. -/
theorem C103_receiver (env : Env) (ce ce' : ConnEnv) (hc : ce.clock = ce'.clock) (fs gs : List Bytes) (h : List.Forall₂ SameData fs gs)
    (hf : ∀ f ∈ fs, WellFramed f) (hg : ∀ g ∈ gs, WellFramed g) (e : End) :
    handleConn env ce fs.flatten e = handleConn env ce' gs.flatten e := by
  have h1 := handleFrom_frames env ce e 0 0 fs [] hf
  have h2 := handleFrom_frames env ce' e 0 0 gs [] hg
  rw [List.append_nil] at h1 h2
  rw [handleConn_eq, handleConn_eq, h1, h2, SameData.processAll env ce ce' hc h 0 0, h.length_eq]
  cases (processAll env ce' 0 0 gs).client with
  | none => rfl
  | some c =>
    dsimp only
    rw [handleFrom_nothing env ce e, handleFrom_nothing env ce' e]

/-- A packet with positions: compressed, of version 1 with prefix 3 and header encoding 7, sent by peer 1 to peer 2, with its time to live
exceeded. -/
def strange : Bytes := relabel 1 9 0b11100111 7 [1, 0, 2, 0, 0] Ex.good

set_option maxRecDepth 40000 in
theorem good_headerOk : HeaderOk Ex.good := by decide +kernel

theorem strange_same : SameData Ex.good strange :=
  C103_any_header 1 9 _ 7 _ Ex.good good_headerOk (by decide +kernel) (by decide +kernel) (.inl (by decide)) (by decide +kernel)

/-- Both can be sent on a connection, and positions are stored. -/
example (env : Env) (ce : ConnEnv) (e : End) : handleConn env ce (Ex.good ++ strange) e = handleConn env ce (strange ++ Ex.good) e := by
  have h := C103_receiver env ce ce rfl [Ex.good, strange] [strange, Ex.good]
    (.cons strange_same (.cons ⟨strange_same.honest.symm, strange_same.header.symm, strange_same.pid.symm, strange_same.pt.symm,
      strange_same.fdl.symm, strange_same.encrypted.symm, strange_same.rest.symm⟩ .nil)) (by decide +kernel) (by decide +kernel) e
  simpa using h

/-- Full statement of C103 (not provable): a packet whose header says that its body is compressed, or that it is for another peer, or that its
header is not like that of version 1, is not decoded, stored and confirmed as if that were not so. The packet below is; and `Decode` accepts it
with any version too. -/
theorem C103_false (env : Env) : ∃ f : Bytes, WellFramed f ∧ Frame.Compressed f ∧ Frame.Routed f ∧ byteAt f 2 / 64 = 3 ∧ byteAt f 4 = 7 ∧
    byteAt f 12 + 256 * byteAt f 13 = 2 ∧ byteAt f 14 = 0 ∧
    (∀ p sp, ∃ q, Package.decode env none p ⟨f, sp⟩ = .ret q 0 none ∧ q.servicesFrameData = some (.sds Ex.goodRecs)) ∧
    ∀ now client sp, handlePacket env now client ⟨f, sp⟩ = handlePacket env now client ⟨Ex.good, sp⟩ := by
  refine ⟨strange, by decide +kernel, by decide +kernel, by decide +kernel, by decide +kernel, by decide +kernel, by decide +kernel,
    by decide +kernel, fun p sp => ?_, fun now client sp => (strange_same.handlePacket env now client sp sp).symm⟩
  obtain ⟨h1, h2⟩ := C103_header_ignored env none Ex.good strange strange_same {} p sp sp
  have hg := (Ex.good_accepts env sp).1
  rw [hg] at h1
  cases hd : Package.decode env none p ⟨strange, sp⟩ with
  | panic => rw [hd] at h1; cases h1
  | ret q code err =>
    rw [hd] at h1
    simp only [DecodeResult.outcome, Frame.Outcome.code.injEq] at h1
    subst h1
    have he := (((decode_frame env none p ⟨strange, sp⟩).2 _ _ _ hd).1).mpr rfl
    subst he
    exact ⟨q, rfl, (h2 _ _ _ _ hg hd).2.2.symm⟩

/-- What is true: an encrypted packet is refused without a key, and so is a packet of another type. Missing: the other things that headers say. -/
theorem C103_refused_partial (env : Env) (p : Package) (c : Slice)
    (h : Frame.Encrypted c.data ∨ (Frame.pt c.data ≠ 0 ∧ Frame.pt c.data ≠ 1)) :
    ∀ q err, Package.decode env none p c ≠ .ret q 0 err := by
  intro q err hd
  obtain ⟨h1, h2⟩ := decode_frame env none p c
  rcases h with h | h
  · obtain ⟨d, h3, _⟩ := (h2 _ _ _ hd).2.2 rfl
    unfold Frame.content Frame.clear at h3
    rw [if_pos h] at h3
    cases h3
  · rw [hd] at h1
    unfold Frame.outcome at h1
    simp only [DecodeResult.outcome, if_pos h] at h1
    repeat' (split at h1)
    all_goals cases h1

/-- Encrypted, and of type 2. -/
example : Frame.Encrypted (respFrame.set 2 8) ∧ Frame.pt (respFrame.set 9 2) = 2 := by decide +kernel

theorem createPtResponse_flags {env : Env} {pid : UInt16} {code st : UInt8} {rs : List RecordData} {b : Bytes}
    (h : createPtResponse env pid code st rs = .ok b) : byteAt b 2 = 0 := by
  unfold createPtResponse at h
  simp only [bind_eq_ok] at h
  obtain ⟨sdr, _, fdl, _, h⟩ := h
  rw [← frameWith_alone] at h
  unfold frameWith at h
  rw [show parseFlags _ = .ok 0 from rfl] at h
  simp only at h
  split at h
  · cases h
  · simp only [Except.ok.injEq] at h
    subst h
    split <;> rfl

/-- The way back: no answer has routing fields, whatever those of the packet were. -/
theorem C103_answers_unrouted (env : Env) (now : Int) (client : UInt32) (pkt : Slice) :
    ∀ w ∈ writes (handlePacket env now client pkt).effs, ¬ Frame.Routed w := by
  have hz : ∀ w : Bytes, byteAt w 2 = 0 → ¬ Frame.Routed w := fun w h => by unfold Frame.Routed; rw [h]; decide
  intro w hw
  apply hz
  rcases packet_cases env pkt with h | ⟨p, code, e, h⟩ | ⟨p, h, hp⟩ | ⟨p, recs, h⟩
  · rw [handlePacket_panic env now client h] at hw
    simp [writes] at hw
  · obtain ⟨r, ⟨_, h1⟩, h2⟩ := handlePacket_rejected env now client h
    rw [h2] at hw
    have : w = r := by simpa [writes] using hw
    rw [this]; exact createPtResponse_flags h1
  · rw [handlePacket_response env now client h hp] at hw
    simp [writes] at hw
  · by_cases hr : ∃ r ∈ recs, r.hasResp = true
    · obtain ⟨r, subs, _, _, h2⟩ := handlePacket_appResp env now client h hr
      rw [h2, writes_saves] at hw
      simp at hw
    · obtain ⟨ack, ⟨_, _, h1⟩, h2⟩ := handlePacket_app env now client h (fun r hr' => by
        cases hh : r.hasResp with
        | false => rfl
        | true => exact absurd ⟨r, hr', hh⟩ hr)
      rw [h2] at hw
      simp only [writes_append, writes_saves, List.nil_append] at hw
      have : w = ack ∨ w = resultPacket p.packetIdentifier := by
        split at hw
        · simpa [writes] using hw
        · exact .inl (by simpa [writes] using hw)
      rcases this with rfl | rfl
      · exact createPtResponse_flags h1
      · rfl

/-- The strange packet is answered, with two packets. -/
example (env : Env) (now : Int) (client : UInt32) : (writes (handlePacket env now client ⟨strange, []⟩).effs).length = 2 := by
  rw [← strange_same.handlePacket env now client [] []]
  obtain ⟨ack, _, h2⟩ := handlePacket_app env now client (Ex.good_accepts env []) (by decide)
  rw [h2, if_pos (by decide)]
  simp [writes_append, writes_saves]
  rfl

end Egts
