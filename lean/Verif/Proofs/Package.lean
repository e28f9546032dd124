import Verif.Spec.Package
import Verif.Proofs.Frame
import Verif.Proofs.Depth

/-! # Encoding packets, and decoding what was encoded -/

namespace Egts

theorem bitStr_mk8 (b7 b6 b5 b4 b3 b2 b1 b0 : Bool) :
    let n := (mk8 b7 b6 b5 b4 b3 b2 b1 b0).toNat
    bitStr (n / 2 ^ 7 % 2) = bit b7 ∧ bitStr (n / 2 ^ 6 % 2) = bit b6 ∧ bitStr (n / 2 ^ 5 % 2) = bit b5 ∧
    bitStr (n / 2 ^ 4 % 2) = bit b4 ∧ bitStr (n / 2 ^ 3 % 2) = bit b3 ∧ bitStr (n / 2 ^ 2 % 2) = bit b2 ∧
    bitStr (n / 2 ^ 1 % 2) = bit b1 ∧ bitStr (n / 2 ^ 0 % 2) = bit b0 := by
  revert b7 b6 b5 b4 b3 b2 b1 b0; decide +kernel

theorem routed_mk8 (b7 b6 b5 b4 b3 b2 b1 b0 : Bool) :
    (mk8 b7 b6 b5 b4 b3 b2 b1 b0).toNat / 32 % 2 = 1 ↔ b5 = true := by
  revert b7 b6 b5 b4 b3 b2 b1 b0; decide +kernel

theorem enc_mk8 (b7 b6 b5 b4 b3 b2 b1 b0 : Bool) :
    (mk8 b7 b6 b5 b4 b3 b2 b1 b0).toNat / 8 % 4 ≠ 0 ↔ bit b4 ++ bit b3 ≠ go!"00" := by
  revert b7 b6 b5 b4 b3 b2 b1 b0; decide +kernel

theorem put16_ofNat_toNat (v : UInt16) :
    (UInt8.ofNat (v.toNat % 256)).toNat + 256 * (UInt8.ofNat (v.toNat / 256)).toNat = v.toNat := by
  have := UInt16.toNat_lt v
  rw [ofNat8_toNat _ (by omega), ofNat8_toNat _ (by omega)]; omega

theorem headBytes_length (p : Package) (fl : UInt8) : (p.headBytes fl).length = if p.route = one then 15 else 10 := by
  unfold Package.headBytes optBytes
  split <;> simp [put16]

/-- Positions in a header followed by anything. -/
theorem head_facts (p : Package) (fl : UInt8) (t : Bytes) :
    let x := p.headBytes fl ++ t
    byteAt x 0 = p.protocolVersion.toNat ∧ byteAt x 1 = p.securityKeyID.toNat ∧ byteAt x 2 = fl.toNat ∧
    Frame.hl x = p.headerLength.toNat ∧ byteAt x 4 = p.headerEncoding.toNat ∧ Frame.fdl x = p.frameDataLength.toNat ∧
    Frame.pid x = p.packetIdentifier.toNat ∧ Frame.pt x = p.packetType.toNat ∧
    (p.route = one → byteAt x 10 + 256 * byteAt x 11 = p.peerAddress.toNat ∧
      byteAt x 12 + 256 * byteAt x 13 = p.recipientAddress.toNat ∧ byteAt x 14 = p.timeToLive.toNat) := by
  intro x
  have e : x = p.protocolVersion :: p.securityKeyID :: fl :: p.headerLength :: p.headerEncoding ::
      UInt8.ofNat (p.frameDataLength.toNat % 256) :: UInt8.ofNat (p.frameDataLength.toNat / 256) ::
      UInt8.ofNat (p.packetIdentifier.toNat % 256) :: UInt8.ofNat (p.packetIdentifier.toNat / 256) :: p.packetType ::
      (optBytes p.route (put16 p.peerAddress ++ put16 p.recipientAddress ++ [p.timeToLive]) ++ t) := by
    simp [x, Package.headBytes, put16]
  rw [e]
  refine ⟨rfl, rfl, rfl, rfl, rfl, ?_, ?_, rfl, fun hr => ?_⟩
  · exact put16_ofNat_toNat _
  · exact put16_ofNat_toNat _
  · have : optBytes p.route (put16 p.peerAddress ++ put16 p.recipientAddress ++ [p.timeToLive]) ++ t =
        UInt8.ofNat (p.peerAddress.toNat % 256) :: UInt8.ofNat (p.peerAddress.toNat / 256) ::
        UInt8.ofNat (p.recipientAddress.toNat % 256) :: UInt8.ofNat (p.recipientAddress.toNat / 256) :: p.timeToLive :: t := by
      simp [optBytes, hr, put16]
    rw [this]
    exact ⟨put16_ofNat_toNat _, put16_ofNat_toNat _, rfl⟩

/-- The flags of a well-formed header. -/
theorem headWF_flags {p : Package} (h : p.HeadWF) : ∃ b7 b6 b5 b4 b3 b2 b1 b0,
    p.prefix_ = bit b7 ++ bit b6 ∧ p.route = bit b5 ∧ p.encryptionAlg = bit b4 ++ bit b3 ∧ p.compression = bit b2 ∧
    p.priority = bit b1 ++ bit b0 ∧
    parseFlags (p.prefix_ ++ p.route ++ p.encryptionAlg ++ p.compression ++ p.priority) =
      .ok (mk8 b7 b6 b5 b4 b3 b2 b1 b0) := by
  obtain ⟨h1, h2, h3, h4, h5, _⟩ := h
  obtain ⟨b7, b6, e1⟩ := isBits2_iff.mp h1
  obtain ⟨b5, e2⟩ := isBit_iff.mp h2
  obtain ⟨b4, b3, e3⟩ := isBits2_iff.mp h3
  obtain ⟨b2, e4⟩ := isBit_iff.mp h4
  obtain ⟨b1, b0, e5⟩ := isBits2_iff.mp h5
  refine ⟨b7, b6, b5, b4, b3, b2, b1, b0, e1, e2, e3, e4, e5, ?_⟩
  rw [e1, e2, e3, e4, e5]
  simp only [List.append_assoc]
  exact parseFlags_bits ..

theorem bodyBytes_iff (env key) (p : Package) (body : Bytes) : p.bodyBytes env key = .ok body ↔ p.Body env key body := by
  unfold Package.bodyBytes Package.Body
  cases p.servicesFrameData with
  | none => simp [eq_comm]
  | some d =>
    simp only [bind_eq_ok]
    constructor
    · rintro ⟨x, hx, h⟩
      refine ⟨x, hx, ?_⟩
      by_cases he : p.encryptionAlg = go!"00"
      · rw [if_neg (fun h => h he)] at h
        cases h
        exact .inl ⟨he, rfl⟩
      · rw [if_pos he] at h
        right
        refine ⟨he, ?_⟩
        cases key with
        | none => cases h
        | some k =>
          refine ⟨k, rfl, ?_⟩
          simp only [liftErr] at h
          cases hk : k.encode x with
          | error e => rw [hk] at h; cases h
          | ok y => rw [hk] at h; cases h; rfl
    · rintro ⟨x, hx, h⟩
      refine ⟨x, hx, ?_⟩
      rcases h with ⟨he, rfl⟩ | ⟨he, k, rfl, hk⟩
      · rw [if_neg (fun h => h he)]; rfl
      · rw [if_pos he]
        simp only [liftErr, hk]

/-- What `Package.Encode` leaves in its receiver. -/
def encoded (p : Package) (body : Bytes) : Package :=
  { p with headerLength := UInt8.ofNat p.fullHL, frameDataLength := UInt16.ofNat body.length }

theorem fillHL_eq {p : Package} (h : p.headerLength = 0 ∨ p.headerLength.toNat = p.fullHL) :
    p.fillHL = { p with headerLength := UInt8.ofNat p.fullHL } := by
  unfold Package.fillHL
  by_cases h0 : p.headerLength = 0
  · rw [if_pos h0]
    unfold Package.fullHL
    split <;> rfl
  · rw [if_neg h0]
    rcases h with h | h
    · exact absurd h h0
    · rw [← h, UInt8.ofNat_toNat]

theorem bodyBytes_hl (env key) (p : Package) (x : UInt8) : ({ p with headerLength := x } : Package).bodyBytes env key = p.bodyBytes env key := rfl

/-- The shape of what `Encode` produces. -/
theorem encode_shape (env key) {p : Package} (h : p.HeadWF) {body : Bytes} (hb : p.Body env key body) (hl : body.length < 2 ^ 16) :
    ∃ fl head, parseFlags (p.prefix_ ++ p.route ++ p.encryptionAlg ++ p.compression ++ p.priority) = .ok fl ∧
      head = (encoded p body).headBytes fl ∧ head.length + 1 = p.fullHL ∧
      p.encode env key = (encoded p body, .ok (head ++ [crc8 head] ++ (if body = [] then [] else body ++ put16 (crc16 body)))) := by
  obtain ⟨b7, b6, b5, b4, b3, b2, b1, b0, e1, e2, e3, e4, e5, hf⟩ := headWF_flags h
  refine ⟨_, _, hf, rfl, ?_, ?_⟩
  · rw [headBytes_length]
    unfold Package.fullHL
    show (if p.route = one then 15 else 10) + 1 = if p.route = one then 16 else 11
    split <;> rfl
  · unfold Package.encode
    rw [hf]
    simp only
    rw [fillHL_eq h.2.2.2.2.2, bodyBytes_hl, (bodyBytes_iff env key p body).mpr hb]
    simp only
    refine Prod.ext rfl ?_
    simp only [Except.ok.injEq]
    have hn : UInt16.ofNat body.length > 0 ↔ body ≠ [] := by
      rw [gt_iff_lt, UInt16.lt_iff_toNat_lt, UInt16.toNat_ofNat', Nat.mod_eq_of_lt hl]
      show 0 < body.length ↔ _
      exact List.length_pos_iff
    by_cases hb : body = []
    · rw [if_neg (fun h => hn.mp h hb), if_pos hb, List.append_nil]; rfl
    · rw [if_pos (hn.mpr hb), if_neg hb, List.append_assoc]; rfl

/-- Positions in an encoded frame. -/
theorem frame_facts {p : Package} {fl : UInt8} {head t : Bytes} (hh : head = p.headBytes fl)
    (hr : fl.toNat / 32 % 2 = 1 ↔ p.route = one) :
    let x := head ++ [crc8 head] ++ t
    (Frame.Routed x ↔ p.route = one) ∧ Frame.hcsPos x = head.length ∧ Frame.rest x = t ∧
    byteAt x (Frame.hcsPos x) = (crc8 head).toNat ∧ x.take head.length = head ∧ x.length = head.length + 1 + t.length := by
  intro x
  have hx : x = p.headBytes fl ++ ([crc8 head] ++ t) := by simp [x, hh]
  have hf := head_facts p fl ([crc8 head] ++ t)
  rw [← hx] at hf
  obtain ⟨_, _, h2, _⟩ := hf
  have hrt : Frame.Routed x ↔ p.route = one := by unfold Frame.Routed; rw [h2]; exact hr
  have hlen : Frame.hcsPos x = head.length := by
    rw [hh, headBytes_length]
    unfold Frame.hcsPos
    by_cases h : p.route = one
    · rw [if_pos h, if_pos (hrt.mpr h)]
    · rw [if_neg h, if_neg (fun y => h (hrt.mp y))]
  refine ⟨hrt, hlen, ?_, ?_, ?_, ?_⟩
  · unfold Frame.rest
    rw [hlen]
    have : x.drop (head ++ [crc8 head]).length = t := List.drop_left
    rwa [List.length_append, List.length_singleton] at this
  · rw [hlen]
    simp [byteAt, x]
  · simp [x]
  · simp [x]; omega

theorem clear_rt (key) {p : Package} {body x b : Bytes} {d : FrameData} {env : Env} (hd : p.servicesFrameData = some d)
    (hx : d.encode env = .ok x) (hb : p.Body env key body)
    (hk : p.encryptionAlg ≠ go!"00" → ∀ k, key = some k → ∀ y, k.encode x = .ok y → k.decode y = .ok x)
    (hbody : Frame.body b = body) (henc : Frame.Encrypted b ↔ p.encryptionAlg ≠ go!"00") :
    Frame.clear key b = .ok x := by
  unfold Package.Body at hb
  rw [hd] at hb
  obtain ⟨x', hx', h⟩ := hb
  rw [hx] at hx'; cases hx'
  unfold Frame.clear
  rcases h with ⟨h1, h2⟩ | ⟨h1, k, h2, h3⟩
  · rw [if_neg (fun h => henc.mp h h1), hbody, h2]
  · rw [if_pos (henc.mpr h1), h2]
    simp only
    rw [hbody]
    exact hk h1 k h2 body h3

/-- Round trip of a response section. -/
theorem ptResponse_rt (env : Env) (r : PtResponse) (h : r.WF env) :
    ∃ b r', r.encode env = .ok b ∧ 3 ≤ b.length ∧ PtResponse.decode env {} b = .ok r' ∧ r.Rel env (SubData.ReadBack env) r' := by
  obtain ⟨pid, pr, sdr⟩ := r
  have key : ∀ rest : Bytes, PtResponse.decode env {} (put16 pid ++ [pr] ++ rest) =
      (if rest ≠ [] then do
        let sds ← ServiceDataSet.decode env [] rest
        pure { responsePacketID := pid, processingResult := pr, sdr := some sds }
      else pure { responsePacketID := pid, processingResult := pr, sdr := none }) := by
    intro rest
    have e := bufferRead_full (buf := zeros 2) (x := put16 pid) (r := pr :: rest) (by simp [put16, zeros]) (by simp [put16])
    have e' : put16 pid ++ [pr] ++ rest = put16 pid ++ pr :: rest := by simp
    unfold PtResponse.decode
    rw [e', e]
    simp only [ok_bind, readByte_cons, le16_put16]
  cases hs : sdr with
  | none =>
    refine ⟨put16 pid ++ [pr] ++ [], { responsePacketID := pid, processingResult := pr, sdr := none }, rfl, by simp [put16], ?_,
      rfl, rfl, ?_, ?_⟩
    · rw [key]; rfl
    · exact .nil
    · simp
  | some s =>
    obtain ⟨b, out, e, sm, hne, d⟩ := sds_stream env s (h s hs)
    have d1 := d [] []
    rw [List.append_nil, sds_decode_nil, List.nil_append] at d1
    have henc : PtResponse.encode env { responsePacketID := pid, processingResult := pr, sdr := some s } =
        .ok (put16 pid ++ [pr] ++ b) := by
      simp only [PtResponse.encode, e, ok_bind, pure_eq_ok]
    refine ⟨put16 pid ++ [pr] ++ b, if b ≠ [] then { responsePacketID := pid, processingResult := pr, sdr := some out }
      else { responsePacketID := pid, processingResult := pr, sdr := none }, henc, by simp [put16], ?_, ?_⟩
    · rw [key]
      by_cases hb : b = []
      · rw [if_neg (fun h => h hb), if_neg (fun h => h hb)]; rfl
      · rw [if_pos hb, if_pos hb, d1]; rfl
    · by_cases hb : b = []
      · rw [if_neg (fun h => h hb)]
        have hs0 : s = [] := Classical.byContradiction fun h => hne h hb
        subst hs0
        exact ⟨rfl, rfl, .nil, by simp⟩
      · rw [if_pos hb]
        refine ⟨rfl, rfl, sm, ?_⟩
        have : s ≠ [] := by
          rintro rfl
          cases e; exact hb rfl
        simp [this]

/-- Round trip of services frame data. -/
theorem frameData_rt (env : Env) (d : FrameData) (h : d.WF env) :
    ∃ x d', d.encode env = .ok x ∧ x ≠ [] ∧ d.Rel env (SubData.ReadBack env) d' ∧
      (match d with
       | .sds _ => do let s ← ServiceDataSet.decode env [] x; pure (FrameData.sds s)
       | .resp _ => do let r ← PtResponse.decode env {} x; pure (FrameData.resp r)) = .ok d' := by
  cases d with
  | sds s =>
    obtain ⟨b, out, e, sm, hne, d⟩ := sds_stream env s h.2
    have d1 := d [] []
    rw [List.append_nil, sds_decode_nil, List.nil_append] at d1
    exact ⟨b, .sds out, e, hne h.1, sm, by simp only [d1, ok_bind, pure_eq_ok]⟩
  | resp r =>
    obtain ⟨b, r', e, hl, d, s⟩ := ptResponse_rt env r h
    exact ⟨b, .resp r', e, by rintro rfl; simp at hl, s, by simp only [d, ok_bind, pure_eq_ok]⟩

theorem toNat_eq_iff_ofNat8 {x : UInt8} {n : Nat} (h : x.toNat = n) : UInt8.ofNat n = x := by
  rw [← h, UInt8.ofNat_toNat]

theorem toNat_eq_iff_ofNat16 {x : UInt16} {n : Nat} (h : x.toNat = n) : UInt16.ofNat n = x := by
  rw [← h, UInt16.ofNat_toNat]

/-- The frame produced for a package with body `body`: positions, flags. -/
theorem encoded_facts {p : Package} {body : Bytes} (h : p.HeadWF) (hl : body.length < 2 ^ 16) {fl : UInt8}
    (hf : parseFlags (p.prefix_ ++ p.route ++ p.encryptionAlg ++ p.compression ++ p.priority) = .ok fl)
    {head : Bytes} (hh : head = (encoded p body).headBytes fl) (t : Bytes) :
    let x := head ++ [crc8 head] ++ t
    (∀ p0 d, Frame.package p0 x d = { p with
        headerLength := UInt8.ofNat p.fullHL
        frameDataLength := UInt16.ofNat body.length
        peerAddress := present p.route p.peerAddress p0.peerAddress
        recipientAddress := present p.route p.recipientAddress p0.recipientAddress
        timeToLive := present p.route p.timeToLive p0.timeToLive
        headerCheckSum := crc8 head
        servicesFrameData := some d
        servicesFrameDataCheckSum := UInt16.ofNat (Frame.sfrcs x) }) ∧
    (Frame.Encrypted x ↔ p.encryptionAlg ≠ go!"00") ∧
    Frame.hl x = p.fullHL ∧ Frame.fdl x = body.length ∧ Frame.pt x = p.packetType.toNat ∧
    Frame.hcsPos x = head.length ∧ Frame.rest x = t ∧
    byteAt x (Frame.hcsPos x) = (crc8 head).toNat ∧ x.take head.length = head ∧ x.length = head.length + 1 + t.length ∧
    Frame.pid x = p.packetIdentifier.toNat := by
  intro x
  obtain ⟨b7, b6, b5, b4, b3, b2, b1, b0, e1, e2, e3, e4, e5, hf'⟩ := headWF_flags h
  rw [hf] at hf'; cases hf'
  have hroute : (encoded p body).route = one ↔ b5 = true := by
    show p.route = one ↔ _
    rw [e2]; exact bit_eq_one _
  obtain ⟨f1, f2, f3, f4, f5, f6⟩ := frame_facts (t := t) hh ((routed_mk8 ..).trans hroute.symm)
  have hx : x = (encoded p body).headBytes (mk8 b7 b6 b5 b4 b3 b2 b1 b0) ++ ([crc8 head] ++ t) := by simp [x, hh]
  have g := head_facts (encoded p body) (mk8 b7 b6 b5 b4 b3 b2 b1 b0) ([crc8 head] ++ t)
  rw [← hx] at g
  obtain ⟨g0, g1, g2, g3, g4, g5, g6, g7, g8⟩ := g
  obtain ⟨k7, k6, k5, k4, k3, k2, k1, k0⟩ := bitStr_mk8 b7 b6 b5 b4 b3 b2 b1 b0
  have hfull : p.fullHL < 256 := by unfold Package.fullHL; split <;> omega
  have hR : Frame.Routed x ↔ p.route = go!"1" := f1
  refine ⟨fun p0 d => ?_, ?_, ?_, ?_, g7, f2, f3, f4, f5, f6, g6⟩
  · unfold Frame.package
    simp only
    have a1 : (if Frame.Routed x then UInt16.ofNat (byteAt x 10 + 256 * byteAt x 11) else p0.peerAddress) =
        present p.route p.peerAddress p0.peerAddress := by
      unfold present
      by_cases hr : p.route = go!"1"
      · rw [if_pos hr, if_pos (hR.mpr hr)]; exact toNat_eq_iff_ofNat16 (g8 hr).1.symm
      · rw [if_neg hr, if_neg (fun y => hr (hR.mp y))]
    have a2 : (if Frame.Routed x then UInt16.ofNat (byteAt x 12 + 256 * byteAt x 13) else p0.recipientAddress) =
        present p.route p.recipientAddress p0.recipientAddress := by
      unfold present
      by_cases hr : p.route = go!"1"
      · rw [if_pos hr, if_pos (hR.mpr hr)]; exact toNat_eq_iff_ofNat16 (g8 hr).2.1.symm
      · rw [if_neg hr, if_neg (fun y => hr (hR.mp y))]
    have a3 : (if Frame.Routed x then UInt8.ofNat (byteAt x 14) else p0.timeToLive) =
        present p.route p.timeToLive p0.timeToLive := by
      unfold present
      by_cases hr : p.route = go!"1"
      · rw [if_pos hr, if_pos (hR.mpr hr)]; exact toNat_eq_iff_ofNat8 (g8 hr).2.2.symm
      · rw [if_neg hr, if_neg (fun y => hr (hR.mp y))]
    rw [a1, a2, a3, f4, g0, g1, g2, g3, g4, g5, g6, g7, k7, k6, k5, k4, k3, k2, k1, k0]
    simp only [UInt8.ofNat_toNat, UInt16.ofNat_toNat]
    rw [← e1, ← e2, ← e3, ← e4, ← e5]
    rfl
  · unfold Frame.Encrypted
    rw [g2, e3]; exact enc_mk8 ..
  · rw [g3]; exact ofNat8_toNat _ hfull
  · rw [g5]
    show (UInt16.ofNat body.length).toNat = _
    rw [UInt16.toNat_ofNat']; exact Nat.mod_eq_of_lt hl

/-- Decoding the frame produced for a package, whose body decodes. -/
theorem decode_encoded (env key p0) {p : Package} {body sp : Bytes} (h : p.HeadWF) (hb0 : body ≠ [])
    (hl : body.length < 2 ^ 16) {fl : UInt8}
    (hf : parseFlags (p.prefix_ ++ p.route ++ p.encryptionAlg ++ p.compression ++ p.priority) = .ok fl)
    {head : Bytes} (hh : head = (encoded p body).headBytes fl) (hlen : head.length + 1 = p.fullHL)
    (hw : p.fullHL + body.length < 65536)
    (hpt : p.packetType = 0 ∨ p.packetType = 1)
    {d : FrameData}
    (hd : ∀ x, (Frame.Encrypted x ↔ p.encryptionAlg ≠ go!"00") → Frame.body x = body → Frame.pt x = p.packetType.toNat →
      Frame.content env key x = .ok d) :
    Package.decode env key p0 ⟨head ++ [crc8 head] ++ (body ++ put16 (crc16 body)), sp⟩ =
      .ret { p with
        headerLength := UInt8.ofNat p.fullHL
        frameDataLength := UInt16.ofNat body.length
        peerAddress := present p.route p.peerAddress p0.peerAddress
        recipientAddress := present p.route p.recipientAddress p0.recipientAddress
        timeToLive := present p.route p.timeToLive p0.timeToLive
        headerCheckSum := crc8 head
        servicesFrameData := some d
        servicesFrameDataCheckSum := crc16 body } 0 none := by
  obtain ⟨f1, f2, f3, f4, f5, f6, f7, f8, f9, f10, f11⟩ := encoded_facts h hl hf hh (body ++ put16 (crc16 body))
  have hd := hd (head ++ [crc8 head] ++ (body ++ put16 (crc16 body))) f2
  generalize head ++ [crc8 head] ++ (body ++ put16 (crc16 body)) = x at *
  have hbody : Frame.body x = body := by
    unfold Frame.body
    rw [f7, f4, List.take_left, List.length_append, show body.length - (body.length + (put16 (crc16 body)).length) = 0 by omega]
    simp [zeros]
  have hafter : Frame.after x = put16 (crc16 body) := by
    unfold Frame.after
    rw [f7, f4, List.drop_left]
  have hsum : Frame.sfrcs x = (crc16 body).toNat := by
    unfold Frame.sfrcs
    rw [hafter]
    exact put16_ofNat_toNat _
  have hend : Frame.bodyEnd x = p.fullHL + body.length := by
    unfold Frame.bodyEnd
    rw [f3, f4]; exact Nat.mod_eq_of_lt hw
  have hhead : Frame.headEnd x = head.length := by
    unfold Frame.headEnd
    rw [f3, ← hlen]
    simp
  have hxl : x.length = head.length + 1 + body.length + 2 := by
    rw [f10, List.length_append]; simp [put16]; omega
  have hd := hd hbody f5
  rw [decode_tail env key p0 ⟨x, sp⟩ (by simp only; rw [f6]; omega)]
  have hall : ∀ n, n ≤ x.length → (Slice.all ⟨x, sp⟩).take n = x.take n := by
    intro n hn
    unfold Slice.all
    rw [List.take_append_of_le_length hn]
  have halll : (Slice.all ⟨x, sp⟩).length = x.length + sp.length := by simp [Slice.all]
  simp only
  rw [if_neg (by rw [halll, hhead]; omega), if_neg (by
    rw [f8, hhead, hall _ (by omega), f9]; exact fun h => h rfl)]
  have := decode_body env key p0 ⟨x, sp⟩
  simp only at this
  rw [this, hd]
  have hpt2 : Frame.pt x = 0 ∨ Frame.pt x = 1 := by
    rw [f5]
    rcases hpt with h | h
    · left; rw [h]; rfl
    · right; rw [h]; rfl
  rw [if_neg (by rw [f7]; simp [hb0]), if_neg (by omega)]
  simp only
  rw [if_neg (by rw [hafter]; simp [put16]), if_neg (by rw [hend, halll, f3]; omega)]
  have hslice : ((Slice.all ⟨x, sp⟩).take (Frame.bodyEnd x)).drop (Frame.hl x) = body := by
    rw [hend, hall _ (by omega), f3, List.drop_take]
    have : x.drop p.fullHL = body ++ put16 (crc16 body) := by
      rw [← f7, ← hlen]
      unfold Frame.rest
      rw [f6]
    rw [this, show p.fullHL + body.length - p.fullHL = body.length by omega, List.take_left]
  rw [if_neg (by rw [hslice, hsum]; exact fun h => h rfl), f1, hsum, UInt16.ofNat_toNat]

/-- Round trip of a well-formed package. -/
theorem package_rt (env key p0) {p : Package} (sp : Bytes) (h : p.WF env key)
    (hw : ∀ body, p.Body env key body → p.fullHL + body.length < 65536)
    (hk : p.encryptionAlg ≠ go!"00" → ∀ k, key = some k → ∀ x y, k.encode x = .ok y → k.decode y = .ok x) :
    ∃ out q, (p.encode env key).2 = .ok out ∧ Package.decode env key p0 ⟨out, sp⟩ = .ret q 0 none ∧ Package.ReadBack env key p0 p q ∧
      (∀ n, n + 1 = p.fullHL → q.headerCheckSum = crc8 (out.take n)) := by
  obtain ⟨h1, d, body, h2, h3, h4, h5, h6, h7⟩ := h
  obtain ⟨fl, head, hf, hh, hlen, henc⟩ := encode_shape env key h1 h5 h7
  obtain ⟨x, d', e1, e2, e3, e4⟩ := frameData_rt env d h4
  have hb0 : body ≠ [] := List.length_pos_iff.mp h6
  rw [if_neg hb0] at henc
  have hpt : p.packetType = 0 ∨ p.packetType = 1 := by
    rw [h3]; cases d
    · right; rfl
    · left; rfl
  refine ⟨_, _, by rw [henc], decode_encoded env key p0 h1 hb0 h7 hf hh hlen (hw body h5) hpt (d := d') ?_, ?_, ?_⟩
  · intro w w1 w2 w3
    have hc := clear_rt key h2 e1 h5 (fun hne k hk' y hy => hk hne k hk' x y hy) w2 w1
    unfold Frame.content
    rw [hc]
    simp only [ok_bind]
    rw [w3, h3]
    cases d with
    | sds s => exact e4
    | resp r => exact e4
  · exact ⟨d, d', body, h2, rfl, e3, h5, rfl⟩
  · intro n hn
    have : n = head.length := by omega
    subst this
    simp

/-- Everything a successful `Encode` says, without assumptions on the package. -/
theorem encode_ok (env key) {p p' : Package} {out : Bytes} (h : p.encode env key = (p', .ok out)) :
    ∃ fl body, parseFlags (p.prefix_ ++ p.route ++ p.encryptionAlg ++ p.compression ++ p.priority) = .ok fl ∧
      p.Body env key body ∧ p' = { p.fillHL with frameDataLength := UInt16.ofNat body.length } ∧
      out = p'.headBytes fl ++ [crc8 (p'.headBytes fl)] ++
        (if body.length % 65536 = 0 then [] else body ++ put16 (crc16 body)) := by
  unfold Package.encode at h
  cases hf : parseFlags (p.prefix_ ++ p.route ++ p.encryptionAlg ++ p.compression ++ p.priority) with
  | error e => rw [hf] at h; cases h
  | ok fl =>
    rw [hf] at h
    simp only at h
    have hb : p.fillHL.bodyBytes env key = p.bodyBytes env key := by unfold Package.fillHL; split <;> rfl
    rw [hb] at h
    cases hb : p.bodyBytes env key with
    | error e => rw [hb] at h; cases h
    | ok body =>
      rw [hb] at h
      simp only [Prod.mk.injEq, Except.ok.injEq] at h
      obtain ⟨h1, h2⟩ := h
      refine ⟨fl, body, rfl, (bodyBytes_iff env key p body).mp hb, h1.symm, ?_⟩
      rw [← h2, ← h1]
      have hn : UInt16.ofNat body.length > 0 ↔ ¬ body.length % 65536 = 0 := by
        rw [gt_iff_lt, UInt16.lt_iff_toNat_lt, UInt16.toNat_ofNat']
        show 0 < body.length % 65536 ↔ _
        omega
      by_cases hb : body.length % 65536 = 0
      · rw [if_neg (fun h => hn.mp h hb), if_pos hb, List.append_nil]
      · rw [if_pos (hn.mpr hb), if_neg hb, List.append_assoc]

theorem fillHL_idem (p : Package) : p.fillHL.fillHL = p.fillHL := by
  by_cases h : p.headerLength = 0
  · have e : p.fillHL = { p with headerLength := if p.route = one then 11 + 5 else 11 } := by
      unfold Package.fillHL; rw [if_pos h]
    rw [e]
    unfold Package.fillHL
    rw [if_neg]
    simp only
    split <;> decide
  · have e : p.fillHL = p := by unfold Package.fillHL; rw [if_neg h]
    rw [e, e]

theorem encode_again (env key) (p : Package) : (p.encode env key).1.encode env key = p.encode env key := by
  have e1 : ∀ (q : Package) (n : UInt16), ({ q with frameDataLength := n } : Package).fillHL = { q.fillHL with frameDataLength := n } := by
    intro q n; unfold Package.fillHL; split <;> rfl
  have e2 : ∀ (q : Package), parseFlags (q.fillHL.prefix_ ++ q.fillHL.route ++ q.fillHL.encryptionAlg ++ q.fillHL.compression ++ q.fillHL.priority)
      = parseFlags (q.prefix_ ++ q.route ++ q.encryptionAlg ++ q.compression ++ q.priority) := by
    intro q; unfold Package.fillHL; split <;> rfl
  have e3 : p.fillHL.bodyBytes env key = p.bodyBytes env key := by unfold Package.fillHL; split <;> rfl
  cases hf : parseFlags (p.prefix_ ++ p.route ++ p.encryptionAlg ++ p.compression ++ p.priority) with
  | error e =>
    have : p.encode env key = (p, .error (.err e)) := by unfold Package.encode; rw [hf]
    rw [this, this]
  | ok fl =>
    cases hb : p.bodyBytes env key with
    | error e =>
      have h1 : p.encode env key = (p.fillHL, .error e) := by unfold Package.encode; rw [hf]; simp only; rw [e3, hb]
      have h2 : p.fillHL.encode env key = (p.fillHL, .error e) := by
        unfold Package.encode
        rw [e2, hf]; simp only; rw [fillHL_idem, e3, hb]
      rw [h1]; exact h2
    | ok body =>
      have h1 : (p.encode env key).1 = { p.fillHL with frameDataLength := UInt16.ofNat body.length } := by
        unfold Package.encode; rw [hf]; simp only; rw [e3, hb]
      rw [h1]
      have h2 : ({ p.fillHL with frameDataLength := UInt16.ofNat body.length } : Package).bodyBytes env key = p.bodyBytes env key := e3
      conv_lhs => unfold Package.encode
      simp only
      rw [e2, hf]
      simp only
      rw [e1, fillHL_idem, h2, hb]
      simp only
      unfold Package.encode
      rw [hf]
      simp only
      rw [e3, hb]

theorem sds_encode_replicate (env : Env) (r : ServiceDataRecord) {b : Bytes} (h : r.encode env = .ok b) (n : Nat) :
    ServiceDataSet.encode env (List.replicate n r) = .ok (List.replicate n b).flatten := by
  induction n with
  | zero => rfl
  | succ n ih =>
    simp only [List.replicate_succ, ServiceDataSet.encode, h, ih, ok_bind, pure_eq_ok, List.flatten_cons]

/-- Without a body only the header is emitted, and decoding stops after it. -/
theorem bodyless_rt (env key p0) {p : Package} (sp : Bytes) (h : p.HeadWF) (hd : p.servicesFrameData = none) :
    ∃ out, (p.encode env key).2 = .ok out ∧ Package.decode env key p0 ⟨out, sp⟩ =
      .ret { p with
        headerLength := UInt8.ofNat p.fullHL
        frameDataLength := 0
        peerAddress := present p.route p.peerAddress p0.peerAddress
        recipientAddress := present p.route p.recipientAddress p0.recipientAddress
        timeToLive := present p.route p.timeToLive p0.timeToLive
        headerCheckSum := crc8 (out.take (p.fullHL - 1))
        servicesFrameData := p0.servicesFrameData
        servicesFrameDataCheckSum := p0.servicesFrameDataCheckSum } 132 (some .eof) := by
  have hb : p.Body env key [] := by unfold Package.Body; rw [hd]
  obtain ⟨fl, head, hf, hh, hlen, henc⟩ := encode_shape env key h hb (by simp)
  rw [if_pos rfl] at henc
  refine ⟨_, by rw [henc], ?_⟩
  obtain ⟨f1, f2, f3, f4, f5, f6, f7, f8, f9, f10, f11⟩ := encoded_facts h (by simp) hf hh []
  have htk : (head ++ [crc8 head] ++ []).take (p.fullHL - 1) = head := by
    rw [show p.fullHL - 1 = head.length by omega]; simp
  rw [htk]
  generalize head ++ [crc8 head] ++ [] = x at *
  have hpk := f1 p0 (.sds [])
  have hsum : headSum p0 x = { Frame.package p0 x (.sds []) with
      servicesFrameData := p0.servicesFrameData
      servicesFrameDataCheckSum := p0.servicesFrameDataCheckSum } := rfl
  have hhead : Frame.headEnd x = head.length := by
    unfold Frame.headEnd
    rw [f3, ← hlen]
    simp
  rw [decode_tail env key p0 ⟨x, sp⟩ (by simp only; rw [f6, f10]; simp)]
  have halll : (Slice.all ⟨x, sp⟩).length = x.length + sp.length := by simp [Slice.all]
  simp only
  have htake : (Slice.all ⟨x, sp⟩).take head.length = head := by
    unfold Slice.all
    rw [List.take_append_of_le_length (by rw [f10]; simp), f9]
  rw [if_neg (by rw [halll, hhead, f10]; omega), if_neg (by rw [f8, hhead, htake]; exact fun h => h rfl)]
  have := decode_body env key p0 ⟨x, sp⟩
  simp only at this
  rw [this, if_pos f7, hsum, hpk]
  rfl

theorem package_sound {env : Env} {key : Option SecretKey} {p0 p q : Package} (hw : p.WF env key) (hs : p.Sound)
    (h : Package.ReadBack env key p0 p q) : Package.Same env key p0 p q := by
  obtain ⟨d, d', body, h1, h2, h3, h4⟩ := h
  obtain ⟨_, x, _, hx, _, hw, _⟩ := hw
  rw [h1] at hx; cases hx
  refine ⟨d, d', body, h1, h2, ?_, h4⟩
  unfold Package.Sound Package.records at hs
  rw [h1] at hs
  match d, d', h3 with
  | .sds a, .sds b, h3 => exact sds_sound hw.2 hs h3
  | .resp a, .resp b, h3 =>
    obtain ⟨e1, e2, e3, e4⟩ := h3
    refine ⟨e1, e2, sds_sound ?_ hs e3, e4⟩
    intro r hr
    cases he : a.sdr with
    | none => rw [he] at hr; cases hr
    | some s => rw [he] at hr; exact hw s he r hr

end Egts
