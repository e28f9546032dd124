import Verif.Proofs.Relay
import Verif.Props.Layout
import Verif.Props.Packages

/-! # C83: passing packages on -/

namespace Egts
open Layout

/-- Whatever package `Decode` accepts, `Encode` does not fail on it: neither an error nor a panic. An encrypted one needs a key that
can encrypt. -/
theorem C83_encodes (env : Env) (key key' : Option SecretKey) (p q : Package) (c : Slice) (h : Package.decode env key p c = .ret q 0 none)
    (hk : q.encryptionAlg ≠ go!"00" → ∃ k, key' = some k ∧ ∀ x, ∃ y, k.encode x = .ok y) :
    (∃ out, (q.encode env key').2 = .ok out) ∧ ∃ out, (q.unsized.encode env key').2 = .ok out := by
  obtain ⟨hf, d, hd, rfl⟩ := (C81_package env key p q c).mp h
  have hm := content_made env hd
  have main : ∀ (q : Package) (d : FrameData), IsBits2 q.prefix_ → IsBit q.route → IsBits2 q.encryptionAlg → IsBit q.compression → IsBits2 q.priority →
      q.servicesFrameData = some d → (q.encryptionAlg ≠ go!"00" → ∃ k, key' = some k ∧ ∀ x, ∃ y, k.encode x = .ok y) → (∀ r ∈ d.records, r.Made env) →
      ∃ out, (q.encode env key').2 = .ok out := by
    intro q d h1 h2 h3 h4 h5 hd hk hm
    obtain ⟨b7, b6, e1⟩ := isBits2_iff.mp h1
    obtain ⟨b5, e2⟩ := isBit_iff.mp h2
    obtain ⟨b4, b3, e3⟩ := isBits2_iff.mp h3
    obtain ⟨b2, e4⟩ := isBit_iff.mp h4
    obtain ⟨b1, b0, e5⟩ := isBits2_iff.mp h5
    have hp : parseFlags (q.prefix_ ++ q.route ++ q.encryptionAlg ++ q.compression ++ q.priority) = .ok (mk8 b7 b6 b5 b4 b3 b2 b1 b0) := by
      rw [e1, e2, e3, e4, e5]
      simp only [List.append_assoc]
      exact parseFlags_bits b7 b6 b5 b4 b3 b2 b1 b0
    obtain ⟨x, hx⟩ := content_encodes hm
    have hb : ∃ body, q.fillHL.bodyBytes env key' = .ok body := by
      have f1 : q.fillHL.servicesFrameData = q.servicesFrameData := by unfold Package.fillHL; split <;> rfl
      have f2 : q.fillHL.encryptionAlg = q.encryptionAlg := by unfold Package.fillHL; split <;> rfl
      by_cases he : q.encryptionAlg = go!"00"
      · exact ⟨x, (bodyBytes_iff env key' _ x).mpr (by unfold Package.Body; rw [f1, hd, f2]; exact ⟨x, hx, .inl ⟨he, rfl⟩⟩)⟩
      · obtain ⟨k, hk, ht⟩ := hk he
        obtain ⟨y, hy⟩ := ht x
        exact ⟨y, (bodyBytes_iff env key' _ y).mpr (by unfold Package.Body; rw [f1, hd, f2]; exact ⟨x, hx, .inr ⟨he, k, hk, hy⟩⟩)⟩
    obtain ⟨body, hb⟩ := hb
    unfold Package.encode
    simp only [hp, hb]
    exact ⟨_, rfl⟩
  exact ⟨main _ d (bitStr2 _ _) (bitStr_isBit _) (bitStr2 _ _) (bitStr_isBit _) (bitStr2 _ _) rfl hk hm,
    main _ d.unsized (bitStr2 _ _) (bitStr_isBit _) (bitStr2 _ _) (bitStr_isBit _) (bitStr2 _ _) rfl hk (content_made_unsized hm)⟩

/-- A package that was decoded, its lengths forgotten, is well-formed if it has a record or is a response, its altitudes fit 24 bits and
its body is not too long. -/
theorem relay_wf (env : Env) (key key' : Option SecretKey) (p q : Package) (c : Slice) (h : Package.decode env key p c = .ret q 0 none)
    (hplain : q.encryptionAlg = go!"00") (halt : q.AltitudesFit) (hne : q.servicesFrameData ≠ some (.sds [])) :
    ∃ body, q.unsized.Body env key' body ∧ (body.length < 2 ^ 16 → q.unsized.WF env key') := by
  obtain ⟨hf, d, hd, rfl⟩ := (C81_package env key p q c).mp h
  have hm := content_made env hd
  obtain ⟨x, hx⟩ := content_encodes (content_made_unsized hm)
  have hb : (Frame.package p c.data d).unsized.Body env key' x := by
    unfold Package.Body
    exact ⟨x, hx, .inl ⟨hplain, rfl⟩⟩
  refine ⟨x, hb, fun hl => ?_⟩
  have hwf : ∀ r ∈ d.unsized.records, r.WF env := by
    intro r hr
    have hr' := hr
    rw [records_unsized] at hr
    obtain ⟨y, hy, rfl⟩ := List.mem_map.mp hr
    refine sdr_unsized_wf (hm y hy) ?_ fun w hw => Nat.lt_of_le_of_lt (content_fit hx _ hr' w hw) hl
    intro rd hrd z hz
    cases z with
    | pos z =>
      refine halt y ?_ rd hrd z hz
      cases d with
      | sds s => exact hy
      | resp r => exact hy
    | _ => trivial
  have hfw : d.unsized.WF env ∧ 0 < x.length := by
    cases d with
    | sds s =>
      cases s with
      | nil => exact absurd rfl hne
      | cons r rs =>
        refine ⟨⟨by simp, hwf⟩, ?_⟩
        obtain ⟨b1, h1, h2⟩ := bind_eq_ok.mp hx
        obtain ⟨b2, _, h3⟩ := bind_eq_ok.mp h2
        cases h3
        unfold ServiceDataRecord.encode at h1
        obtain ⟨w, _, h1⟩ := bind_eq_ok.mp h1
        obtain ⟨f, _, h1⟩ := bind_eq_ok.mp h1
        cases h1
        simp only [List.length_append, List.length_cons]
        omega
    | resp r =>
      refine ⟨?_, ?_⟩
      · intro s hs r' hr'
        refine hwf r' ?_
        simp only [FrameData.unsized, FrameData.records] at hs ⊢
        rw [hs]
        exact hr'
      · change PtResponse.encode env _ = _ at hx
        unfold PtResponse.encode at hx
        obtain ⟨w, _, h1⟩ := bind_eq_ok.mp hx
        cases h1
        simp only [List.length_append, List.length_cons]
        omega
  refine ⟨⟨bitStr2 _ _, bitStr_isBit _, bitStr2 _ _, bitStr_isBit _, bitStr2 _ _, .inl rfl⟩, d.unsized, x, rfl, ?_, hfw.1, hb, hfw.2, hl⟩
  show UInt8.ofNat (Frame.pt c.data) = _
  obtain ⟨_, _, ⟨hpt, _, _, rfl⟩ | ⟨hpt, _, _, rfl⟩⟩ := hd <;> rw [hpt] <;> rfl

/-- Two records, the first with a subrecord of unknown type. -/
def mixedFrame : Bytes := [1, 0, 0, 11, 0, 27, 0, 9, 0, 1, 55, 5, 0, 1, 0, 0, 2, 2, 99, 2, 0, 1, 2, 8, 0, 2, 0, 0, 2, 2, 21, 5, 0, 1, 120, 0, 40, 5, 32, 223]

/-- What is decoded from it. -/
def mixedPackage : Package :=
  { protocolVersion := 1, prefix_ := go!"00", route := go!"0", encryptionAlg := go!"00", compression := go!"0", priority := go!"00"
    headerLength := 11, frameDataLength := 27, packetIdentifier := 9, packetType := 1, headerCheckSum := 55
    servicesFrameData := some (.sds [
      { recordLength := 5, recordNumber := 1, ssod := go!"0", rsod := go!"0", grp := go!"0", rpp := go!"00", tmfe := go!"0", evfe := go!"0",
        obfe := go!"0", sourceServiceType := 2, recipientServiceType := 2 },
      { recordLength := 8, recordNumber := 2, ssod := go!"0", rsod := go!"0", grp := go!"0", rpp := go!"00", tmfe := go!"0", evfe := go!"0",
        obfe := go!"0", sourceServiceType := 2, recipientServiceType := 2
        recordDataSet := [⟨21, 5, some (.state ⟨1, 120, 0, 40, go!"1", go!"0", go!"1"⟩)⟩] }])
    servicesFrameDataCheckSum := 57120 }

/-- What is encoded from that, as it is. -/
def mixedAgain : Bytes := [1, 0, 0, 11, 0, 22, 0, 9, 0, 1, 197, 5, 0, 1, 0, 0, 2, 2, 8, 0, 2, 0, 0, 2, 2, 21, 5, 0, 1, 120, 0, 40, 5, 253, 10]

/-- What is left when decoding that has failed. -/
def mixedLeft : Package :=
  { protocolVersion := 1, prefix_ := go!"00", route := go!"0", encryptionAlg := go!"00", compression := go!"0", priority := go!"00"
    headerLength := 11, frameDataLength := 22, packetIdentifier := 9, packetType := 1, headerCheckSum := 197
    servicesFrameData := some (.sds [
      { recordLength := 5, recordNumber := 1, ssod := go!"0", rsod := go!"0", grp := go!"0", rpp := go!"00", tmfe := go!"0", evfe := go!"0",
        obfe := go!"0", sourceServiceType := 2, recipientServiceType := 2 }]) }

set_option maxRecDepth 20000 in
theorem mixed_decode (env : Env) : Package.decode env none {} ⟨mixedFrame, []⟩ = .ret mixedPackage 0 none := by with_unfolding_all rfl

set_option maxRecDepth 20000 in
theorem mixed_encode (env : Env) : (mixedPackage.encode env none).2 = .ok mixedAgain := by
  have hb : mixedPackage.fillHL.bodyBytes env none = .ok ((mixedAgain.drop 11).take 22) := by with_unfolding_all rfl
  have hp : parseFlags (mixedPackage.prefix_ ++ mixedPackage.route ++ mixedPackage.encryptionAlg ++ mixedPackage.compression ++ mixedPackage.priority) = .ok 0 := by
    decide
  unfold Package.encode
  simp only [hp, hb]
  decide +kernel

set_option maxRecDepth 20000 in
theorem mixed_again (env : Env) : Package.decode env none {} ⟨mixedAgain, []⟩ = .ret mixedLeft 129 (some .eof) := by
  with_unfolding_all rfl

theorem mixed_fits : mixedPackage.AltitudesFit ∧ mixedPackage.SensorsSound := by
  constructor
  · intro r hr rd hrd x hx
    simp only [Package.records, mixedPackage, List.mem_cons, List.not_mem_nil, or_false] at hr
    rcases hr with rfl | rfl
    · simp at hrd
    · simp only [List.mem_singleton] at hrd
      subst hrd
      simp at hx
  · intro r hr rd hrd
    simp only [Package.records, mixedPackage, List.mem_cons, List.not_mem_nil, or_false] at hr
    rcases hr with rfl | rfl
    · simp at hrd
    · simp only [List.mem_singleton] at hrd
      subst hrd
      simp

/-- Full statement of C83 (not provable): `C83_relay_partial` with `q` for `q.unsized`. An accepted frame of two records, the first with a
subrecord of unknown type: the package, encoded as it is, gives a frame that is rejected. The first record has lost the
subrecord, but declares its old length. -/
theorem C83_false (env : Env) : ∃ (b : Bytes) (q : Package) (out : Bytes) (q2 : Package) (e : Err),
    Package.decode env none {} ⟨b, []⟩ = .ret q 0 none ∧ q.encryptionAlg = go!"00" ∧ q.AltitudesFit ∧ q.SensorsSound ∧
    (q.encode env none).2 = .ok out ∧ Package.decode env none {} ⟨out, []⟩ = .ret q2 129 (some e) :=
  ⟨mixedFrame, mixedPackage, mixedAgain, mixedLeft, .eof, mixed_decode env, rfl, mixed_fits.1, mixed_fits.2, mixed_encode env, mixed_again env⟩

/-- Whatever package in the clear `Decode` accepts can be passed on if its lengths are forgotten: it is encoded, and decoding the result,
with any key, into any receiver and whatever memory lies behind the frame, succeeds and gives the package that
`Package.ReadBack` says: the same one, except for the content of the subrecords of C28 and C29. The conditions: there is a record, or it is a
response; altitudes fit 24 bits; HL+FDL fits 16 bits. -/
theorem C83_relay_exact (env : Env) (key key' : Option SecretKey) (p q p0 : Package) (c : Slice) (sp : Bytes)
    (h : Package.decode env key p c = .ret q 0 none)
    (hplain : q.encryptionAlg = go!"00") (halt : q.AltitudesFit) (hne : q.servicesFrameData ≠ some (.sds []))
    (hfit : ∀ body, q.unsized.Body env key' body → q.fullHL + body.length < 2 ^ 16) :
    ∃ out q2, (q.unsized.encode env key').2 = .ok out ∧ Package.decode env key' p0 ⟨out, sp⟩ = .ret q2 0 none ∧
      Package.ReadBack env key' p0 q.unsized q2 := by
  obtain ⟨body, hb, hwf⟩ := relay_wf env key key' p q c h hplain halt hne
  have hl := hfit body hb
  obtain ⟨out, e1, _, e3⟩ := package_exact env key' q.unsized p0 sp body (hwf (by omega)) (fun hne => absurd hplain hne) hb
  obtain ⟨q2, e4, e5, _⟩ := e3 hl
  exact ⟨out, q2, e1, e4, e5⟩

/-- If also no analog sensor lacks its mirror image and there is no second counter, it is the same package. -/
theorem C83_relay_partial (env : Env) (key key' : Option SecretKey) (p q p0 : Package) (c : Slice) (sp : Bytes)
    (h : Package.decode env key p c = .ret q 0 none)
    (hplain : q.encryptionAlg = go!"00") (halt : q.AltitudesFit) (hne : q.servicesFrameData ≠ some (.sds [])) (hs : q.SensorsSound)
    (hfit : ∀ body, q.unsized.Body env key' body → q.fullHL + body.length < 2 ^ 16) :
    ∃ out q2, (q.unsized.encode env key').2 = .ok out ∧ Package.decode env key' p0 ⟨out, sp⟩ = .ret q2 0 none ∧
      Package.Same env key' p0 q.unsized q2 := by
  obtain ⟨body, hb, hwf⟩ := relay_wf env key key' p q c h hplain halt hne
  have hl := hfit body hb
  obtain ⟨out, e1, _, e3⟩ := package_exact env key' q.unsized p0 sp body (hwf (by omega)) (fun hne => absurd hplain hne) hb
  obtain ⟨q2, e4, e5, _⟩ := e3 hl
  refine ⟨out, q2, e1, e4, package_sound (hwf (by omega)) ?_ e5⟩
  obtain ⟨hf, d, hd, rfl⟩ := (C81_package env key p q c).mp h
  have hr : (Frame.package p c.data d).records = d.records := by cases d <;> rfl
  have hu : (Frame.package p c.data d).unsized.records = d.unsized.records := by cases d <;> rfl
  intro r hr' rd hrd z hz
  rw [hu, records_unsized] at hr'
  obtain ⟨y, hy, rfl⟩ := List.mem_map.mp hr'
  obtain ⟨x, hx, rfl⟩ := List.mem_map.mp hrd
  obtain ⟨d', hd', _, _, hc, _⟩ := (content_made env hd y hy).2.2.2.2.2.2.2.2 x hx
  have hz' : x.subrecordData = some z := hz
  rw [hz'] at hd'
  cases hd'
  obtain ⟨g1, g2⟩ := hs y (by rw [hr]; exact hy) x hx
  cases z with
  | pos z => exact hc
  | adSens z => exact g1 z hz'
  | counters z => exact g2 z hz'
  | _ => trivial

/-- Passed on with its lengths forgotten, the frame of `C83_false` arrives. -/
example (env : Env) : ∃ out q2, (mixedPackage.unsized.encode env none).2 = .ok out ∧ Package.decode env none {} ⟨out, []⟩ = .ret q2 0 none ∧
    Package.Same env none {} mixedPackage.unsized q2 :=
  C83_relay_partial env none none {} mixedPackage {} ⟨mixedFrame, []⟩ [] (mixed_decode env) rfl mixed_fits.1 (by simp [mixedPackage]) mixed_fits.2 (by
    intro body hb
    have : mixedPackage.unsized.Body env none (mixedAgain.drop 11 |>.dropLast.dropLast.set 0 0) := ⟨_, by with_unfolding_all rfl, .inl ⟨rfl, rfl⟩⟩
    rw [body_unique hb this]
    decide)

end Egts
