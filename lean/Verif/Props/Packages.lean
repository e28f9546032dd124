import Verif.Model.Server
import Verif.Proofs.Package
import Verif.Props.Records
import Verif.Props.Decode

/-! # Properties of `Package.Encode` and of encoding followed by decoding (C06-C10, C14, C15) -/

namespace Egts

/-! ## C06 -/

/-- A record without subrecords and optional fields: seven zero bytes. -/
def emptyRecord : ServiceDataRecord :=
  { ssod := go!"0", rsod := go!"0", grp := go!"0", rpp := go!"00", tmfe := go!"0", evfe := go!"0", obfe := go!"0" }

theorem emptyRecord_wf (env : Env) : emptyRecord.WF env :=
  ⟨by decide, by decide, by decide, by decide, by decide, by decide, by decide, fun h => absurd h (by decide),
    fun rd h => (by cases h), [], rfl, by decide, .inl rfl⟩

theorem emptyRecord_encode (env : Env) : emptyRecord.encode env = .ok [0, 0, 0, 0, 0, 0, 0] := by with_unfolding_all rfl

/-- An application package of `n` empty records. -/
def manyRecords (n : Nat) : Package :=
  { protocolVersion := 1, prefix_ := go!"00", route := go!"0", encryptionAlg := go!"00", compression := go!"0", priority := go!"00",
    packetIdentifier := 1, packetType := 1, servicesFrameData := some (.sds (List.replicate n emptyRecord)) }

def manyBody (n : Nat) : Bytes := (List.replicate n [0, 0, 0, 0, 0, 0, 0]).flatten

theorem manyBody_length (n : Nat) : (manyBody n).length = 7 * n := by
  induction n with
  | zero => rfl
  | succ n ih =>
    unfold manyBody at *
    rw [List.replicate_succ, List.flatten_cons, List.length_append, ih]
    simp; omega

theorem manyRecords_body (env key) (n : Nat) : (manyRecords n).Body env key (manyBody n) :=
  ⟨manyBody n, sds_encode_replicate env _ (emptyRecord_encode env) n, .inl ⟨rfl, rfl⟩⟩

theorem manyRecords_wf (env key) (n : Nat) (h0 : 0 < n) (h : 7 * n < 65536) : (manyRecords n).WF env key := by
  refine ⟨(by decide : (manyRecords 0).HeadWF), .sds (List.replicate n emptyRecord), manyBody n, rfl, rfl, ⟨?_, ?_⟩, manyRecords_body env key n, ?_, ?_⟩
  · intro h; have := congrArg List.length h; simp at this; omega
  · intro x hx; rw [(List.mem_replicate.mp hx).2]; exact emptyRecord_wf env
  · rw [manyBody_length]; omega
  · rw [manyBody_length]; omega

theorem body_unique {env : Env} {key : Option SecretKey} {p : Package} {a b : Bytes} (h1 : p.Body env key a) (h2 : p.Body env key b) : a = b := by
  have e := (bodyBytes_iff env key p a).mpr h1
  rw [(bodyBytes_iff env key p b).mpr h2] at e
  injection e with e; exact e.symm

theorem long_body_panics (env : Env) (key : Option SecretKey) (p p0 : Package) (sp body : Bytes) (h : p.WF env key)
    (hk : p.encryptionAlg ≠ go!"00" → ∀ k, key = some k → ∀ x y, k.encode x = .ok y → k.decode y = .ok x) (hb : p.Body env key body) (hlong : 2 ^ 16 ≤ p.fullHL + body.length) :
    ∃ out, (p.encode env key).2 = .ok out ∧ Package.decode env key p0 ⟨out, sp⟩ = .panic := by
  obtain ⟨h1, d, body', h2, h3, h4, h5, h6, h7⟩ := h
  have hbb : body' = body := by
    have a := (bodyBytes_iff env key p body').mpr h5
    rw [(bodyBytes_iff env key p body).mpr hb] at a
    injection a with a; exact a.symm
  subst hbb
  obtain ⟨fl, head, hf, hh, hlen, henc⟩ := encode_shape env key h1 h5 h7
  obtain ⟨x, d', e1, e2, e3, e4⟩ := frameData_rt env d h4
  have hb0 : body' ≠ [] := List.length_pos_iff.mp h6
  rw [if_neg hb0] at henc
  refine ⟨_, by rw [henc], ?_⟩
  obtain ⟨f1, f2, f3, f4, f5, f6, f7, f8, f9, f10, f11⟩ := encoded_facts h1 h7 hf hh (body' ++ put16 (crc16 body'))
  have hcl := clear_rt (b := head ++ [crc8 head] ++ (body' ++ put16 (crc16 body'))) key h2 e1 h5 (fun hne k hk' y hy => hk hne k hk' x y hy)
    (by
      unfold Frame.body
      rw [f7, f4, List.take_left, List.length_append,
        show body'.length - (body'.length + (put16 (crc16 body')).length) = 0 by omega]
      simp [zeros]) f2
  generalize head ++ [crc8 head] ++ (body' ++ put16 (crc16 body')) = y at *
  have hpt : Frame.pt y = 0 ∨ Frame.pt y = 1 := by
    rw [f5, h3]; cases d
    · right; rfl
    · left; rfl
  have hyl : y.length = head.length + 1 + body'.length + 2 := by
    rw [f10, List.length_append]; simp [put16]; omega
  refine C11_overflow env key p0 ⟨y, sp⟩ ?_ ?_ ?_ ?_ hpt ⟨d', ?_⟩
  · show Frame.hl y = Frame.hcsPos y + 1
    rw [f3, f6, hlen]
  · show _ ≤ Frame.hl y + Frame.fdl y
    rw [f3, f4]; exact hlong
  · show Frame.total y ≤ y.length
    unfold Frame.total
    rw [f6, f4]; omega
  · show byteAt y (Frame.hcsPos y) = (crc8 (y.take (Frame.hcsPos y))).toNat
    rw [f8, f6, f9]
  · unfold Frame.content
    simp only
    rw [hcl]
    simp only [ok_bind]
    rw [f5, h3]
    cases d with
    | sds s => exact e4
    | resp r => exact e4

/-- A well-formed package whose body is so long that HL+FDL does not fit 16 bits is encoded, and the
decoder panics on the result. -/
theorem C06_long_body_panics (env : Env) (key : Option SecretKey) (p p0 : Package) (sp body : Bytes) (h : p.WF env key)
    (hplain : p.encryptionAlg = go!"00") (hb : p.Body env key body) (hlong : 2 ^ 16 ≤ p.fullHL + body.length) :
    ∃ out, (p.encode env key).2 = .ok out ∧ Package.decode env key p0 ⟨out, sp⟩ = .panic :=
  long_body_panics env key p p0 sp body h (fun hne => absurd hplain hne) hb hlong

/-- Full statement of C06 (not provable): `C06_application_roundtrip_partial` without `hfit` and without
`Sound`. An application package of 9361 records, 65527 bytes in all, is encoded but the decoder panics on
it. For what is not `Sound` see `C17_false`. -/
theorem C06_false (env : Env) (key : Option SecretKey) : ∃ p : Package, p.WF env key ∧ p.Sound ∧ p.encryptionAlg = go!"00" ∧
    (∃ s, p.servicesFrameData = some (.sds s)) ∧
    ∀ p0 sp, ∃ out, (p.encode env key).2 = .ok out ∧ Package.decode env key p0 ⟨out, sp⟩ = .panic :=
  ⟨manyRecords 9361, manyRecords_wf env key 9361 (by decide) (by decide), (by
      intro r hr
      rw [show (manyRecords 9361).records = List.replicate 9361 emptyRecord from rfl] at hr
      rw [List.eq_of_mem_replicate hr]
      exact fun _ h => absurd h List.not_mem_nil), rfl, ⟨_, rfl⟩, fun p0 sp =>
    C06_long_body_panics env key _ p0 sp _ (manyRecords_wf env key 9361 (by decide) (by decide)) rfl (manyRecords_body env key 9361)
      (by rw [manyBody_length]; decide)⟩

/-- The exact round trip of a well-formed package whose key, if it needs one, inverts itself. -/
theorem package_exact (env : Env) (key : Option SecretKey) (p p0 : Package) (sp body : Bytes) (h : p.WF env key)
    (hk : p.encryptionAlg ≠ go!"00" → ∀ k, key = some k → ∀ x y, k.encode x = .ok y → k.decode y = .ok x) (hb : p.Body env key body) :
    ∃ out, (p.encode env key).2 = .ok out ∧
      (2 ^ 16 ≤ p.fullHL + body.length → Package.decode env key p0 ⟨out, sp⟩ = .panic) ∧
      (p.fullHL + body.length < 2 ^ 16 → ∃ q, Package.decode env key p0 ⟨out, sp⟩ = .ret q 0 none ∧
        Package.ReadBack env key p0 p q ∧ q.headerCheckSum = crc8 (out.take (p.fullHL - 1))) := by
  by_cases hl : p.fullHL + body.length < 2 ^ 16
  · obtain ⟨out, q, e1, e2, e3, e4⟩ := package_rt env key p0 sp h (fun body' hb' => by rw [body_unique hb' hb]; exact hl) hk
    exact ⟨out, e1, fun h => absurd hl (by omega), fun _ => ⟨q, e2, e3, e4 _ (by unfold Package.fullHL; split <;> rfl)⟩⟩
  · obtain ⟨out, e1, e2⟩ := long_body_panics env key p p0 sp body h hk hb (by omega)
    exact ⟨out, e1, fun _ => e2, fun h => absurd h hl⟩

/-- What the code does, for every well-formed unencrypted application package: it is encoded; if HL+FDL is
65536 or more, decoding panics; otherwise decoding, into any receiver and whatever memory lies behind the
frame, succeeds and gives the package `Package.ReadBack` says: the same one, except for the content of the
subrecords of C28, C29 and C32. -/
theorem C06_application_exact (env : Env) (key : Option SecretKey) (p p0 : Package) (sp body : Bytes)
    (s : List ServiceDataRecord) (hs : p.servicesFrameData = some (.sds s)) (h : p.WF env key) (hplain : p.encryptionAlg = go!"00")
    (hb : ServiceDataSet.encode env s = .ok body) :
    ∃ out, (p.encode env key).2 = .ok out ∧
      (2 ^ 16 ≤ p.fullHL + body.length → Package.decode env key p0 ⟨out, sp⟩ = .panic) ∧
      (p.fullHL + body.length < 2 ^ 16 → ∃ q, Package.decode env key p0 ⟨out, sp⟩ = .ret q 0 none ∧
        Package.ReadBack env key p0 p q ∧ q.headerCheckSum = crc8 (out.take (p.fullHL - 1))) :=
  package_exact env key p p0 sp body h (fun hne => absurd hplain hne) (by
    unfold Package.Body
    rw [hs]
    exact ⟨body, hb, .inl ⟨hplain, rfl⟩⟩)

/-- Every well-formed unencrypted application package is encoded, and decoding the result, into any
receiver and whatever memory lies behind it, succeeds and gives the same package. Missing: bodies for
which HL+FDL is 65536 or more (`C06_false`), and what is not `Sound`: counters with counter 2, asymmetric
analog sensors, directions with the ninth bit only (C28, C29, C32). -/
theorem C06_application_roundtrip_partial (env : Env) (key : Option SecretKey) (p p0 : Package) (sp : Bytes)
    (s : List ServiceDataRecord) (hs : p.servicesFrameData = some (.sds s)) (h : p.WF env key) (hsound : p.Sound)
    (hplain : p.encryptionAlg = go!"00")
    (hfit : ∀ body, ServiceDataSet.encode env s = .ok body → p.fullHL + body.length < 2 ^ 16) :
    ∃ out q, (p.encode env key).2 = .ok out ∧ Package.decode env key p0 ⟨out, sp⟩ = .ret q 0 none ∧
      Package.Same env key p0 p q ∧ q.headerCheckSum = crc8 (out.take (p.fullHL - 1)) := by
  obtain ⟨_, d, body, hd, _, _, hb, _⟩ := id h
  rw [hs] at hd; cases hd
  unfold Package.Body at hb
  rw [hs] at hb
  obtain ⟨x, hx, ⟨_, rfl⟩ | ⟨hne, _⟩⟩ := hb
  · obtain ⟨out, e1, _, e3⟩ := C06_application_exact env key p p0 sp body s hs h hplain hx
    obtain ⟨q, e4, e5, e6⟩ := e3 (hfit _ hx)
    exact ⟨out, q, e1, e4, package_sound h hsound e5, e6⟩
  · exact absurd hplain hne

/-- A routed application package with three subrecords in one record and an empty record. -/
def appPackage : Package :=
  { protocolVersion := 1, prefix_ := go!"00", route := go!"1", encryptionAlg := go!"00", compression := go!"0", priority := go!"11",
    packetIdentifier := 5, packetType := 1, peerAddress := 3, recipientAddress := 4, timeToLive := 9,
    servicesFrameData := some (.sds [sdrExample, sdrExample2]) }

def appBody : Bytes :=
  [33, 0, 97, 0, 149, 176, 9, 2, 0, 0, 199, 241, 20, 2, 2, 25, 4, 0, 110, 0x39, 0x30, 0, 2, 15, 0, 0, 0, 0, 0, 0, 0, 0, 0, 0, 0, 0,
   83, 78, 0, 0, 20, 5, 0, 2, 0, 0, 0, 4, 0, 0, 98, 0, 2, 7, 0, 0, 0, 0, 0]

theorem appPackage_wf (env key) : appPackage.WF env key ∧
    ∀ body, ServiceDataSet.encode env [sdrExample, sdrExample2] = .ok body → appPackage.fullHL + body.length < 2 ^ 16 := by
  have e : ServiceDataSet.encode env [sdrExample, sdrExample2] = .ok appBody := by with_unfolding_all rfl
  refine ⟨⟨by decide, .sds [sdrExample, sdrExample2], appBody, rfl, rfl, ⟨by simp, ?_⟩, ⟨appBody, e, .inl ⟨rfl, rfl⟩⟩, by decide,
    by decide⟩, ?_⟩
  · intro r h
    simp only [List.mem_cons, List.not_mem_nil, or_false] at h
    rcases h with rfl | rfl
    · exact sdrExample_wf env
    · exact ⟨by decide, by decide, by decide, by decide, by decide, by decide, by decide, fun h => absurd h (by decide),
        fun rd h => (by cases h), [], rfl, by decide, .inl rfl⟩
  · intro body hb
    rw [e] at hb
    injection hb with hb
    subst hb; decide

theorem appPackage_sound : appPackage.Sound := sdrExamples_sound

example (env key) : appPackage.WF env key ∧ appPackage.Sound := ⟨(appPackage_wf env key).1, appPackage_sound⟩

/-- A well-formed package that is not `Sound`: it carries a second counter. -/
def unsoundPackage : Package :=
  { appPackage with servicesFrameData := some (.sds [{ sdrExample2 with recordDataSet := [{ subrecordData := some (.counters counter2) }] }]) }

example (env key) : unsoundPackage.WF env key ∧ ¬ unsoundPackage.Sound := by
  refine ⟨⟨by decide, _, [7, 0, 98, 0, 2, 7, 0, 0, 0, 0, 0, 19, 4, 0, 2, 22, 0, 0], rfl, rfl, ⟨by simp, ?_⟩,
    ⟨_, by with_unfolding_all rfl, .inl ⟨rfl, rfl⟩⟩, by decide, by decide⟩, ?_⟩
  · intro r hr
    rw [List.mem_singleton] at hr
    subst hr
    refine ⟨by decide, by decide, by decide, by decide, by decide, by decide, by decide, fun h => absurd h (by decide), ?_,
      [19, 4, 0, 2, 22, 0, 0], by with_unfolding_all rfl, by decide, .inl rfl⟩
    intro rd hrd
    rw [List.mem_singleton] at hrd
    subst hrd
    exact ⟨_, [2, 22, 0, 0], rfl, by show SrCountersData.FlagsWF _; decide +kernel, .inr (.inl ⟨rfl, by decide, by decide⟩),
      by with_unfolding_all rfl, by decide, .inl rfl⟩
  · intro h
    have h1 : counter2.cfe2 = go!"0" := h _ (List.mem_singleton.mpr rfl) _ (List.mem_singleton.mpr rfl) _ rfl
    exact absurd h1 (by decide)

/-! ## C07 -/

/-- What the code does, for every well-formed unencrypted response package, with or without service
records: as C06. -/
theorem C07_response_exact (env : Env) (key : Option SecretKey) (p p0 : Package) (sp body : Bytes) (r : PtResponse)
    (hs : p.servicesFrameData = some (.resp r)) (h : p.WF env key) (hplain : p.encryptionAlg = go!"00")
    (hb : r.encode env = .ok body) :
    ∃ out, (p.encode env key).2 = .ok out ∧
      (2 ^ 16 ≤ p.fullHL + body.length → Package.decode env key p0 ⟨out, sp⟩ = .panic) ∧
      (p.fullHL + body.length < 2 ^ 16 → ∃ q, Package.decode env key p0 ⟨out, sp⟩ = .ret q 0 none ∧
        Package.ReadBack env key p0 p q ∧ q.headerCheckSum = crc8 (out.take (p.fullHL - 1))) :=
  package_exact env key p p0 sp body h (fun hne => absurd hplain hne) (by
    unfold Package.Body
    rw [hs]
    exact ⟨body, hb, .inl ⟨hplain, rfl⟩⟩)

/-- Every well-formed unencrypted response package, with or without service records, is encoded, and
decoding gives it back. Missing: as for C06. -/
theorem C07_response_roundtrip_partial (env : Env) (key : Option SecretKey) (p p0 : Package) (sp : Bytes) (r : PtResponse)
    (hs : p.servicesFrameData = some (.resp r)) (h : p.WF env key) (hsound : p.Sound) (hplain : p.encryptionAlg = go!"00")
    (hfit : ∀ body, r.encode env = .ok body → p.fullHL + body.length < 2 ^ 16) :
    ∃ out q, (p.encode env key).2 = .ok out ∧ Package.decode env key p0 ⟨out, sp⟩ = .ret q 0 none ∧
      Package.Same env key p0 p q ∧ q.headerCheckSum = crc8 (out.take (p.fullHL - 1)) := by
  obtain ⟨_, d, body, hd, _, _, hb, _⟩ := id h
  rw [hs] at hd; cases hd
  unfold Package.Body at hb
  rw [hs] at hb
  obtain ⟨x, hx, ⟨_, rfl⟩ | ⟨hne, _⟩⟩ := hb
  · obtain ⟨out, e1, _, e3⟩ := C07_response_exact env key p p0 sp body r hs h hplain hx
    obtain ⟨q, e4, e5, e6⟩ := e3 (hfit _ hx)
    exact ⟨out, q, e1, e4, package_sound h hsound e5, e6⟩
  · exact absurd hplain hne

/-- A response with two records. -/
def respExample : PtResponse := { responsePacketID := 14357, processingResult := 0, sdr := some [sdrExample, sdrExample2] }

example : ({ appPackage with packetType := 0, servicesFrameData := some (.resp respExample) } : Package).Sound := sdrExamples_sound

example (env key) : ({ appPackage with packetType := 0, servicesFrameData := some (.resp respExample) } : Package).WF env key := by
  have e : respExample.encode env = .ok (0x15 :: 0x38 :: 0 :: appBody) := by with_unfolding_all rfl
  refine ⟨by decide, .resp respExample, 0x15 :: 0x38 :: 0 :: appBody, rfl, rfl, ?_, ⟨_, e, .inl ⟨rfl, rfl⟩⟩, by decide, by decide⟩
  intro s hs
  cases hs
  obtain ⟨⟨_, d, _, hd, _, hw, _⟩, _⟩ := appPackage_wf env key
  cases hd
  exact hw.2

/-! ## C08 -/

/-- What the code does, with a key whose `Decode` inverts its `Encode`, for every well-formed package,
application or response, encrypted or not: as C06. -/
theorem C08_encrypted_exact (env : Env) (k : SecretKey) (hk : ∀ x y, k.encode x = .ok y → k.decode y = .ok x)
    (p p0 : Package) (sp body : Bytes) (h : p.WF env (some k)) (hb : p.Body env (some k) body) :
    ∃ out, (p.encode env (some k)).2 = .ok out ∧
      (2 ^ 16 ≤ p.fullHL + body.length → Package.decode env (some k) p0 ⟨out, sp⟩ = .panic) ∧
      (p.fullHL + body.length < 2 ^ 16 → ∃ q, Package.decode env (some k) p0 ⟨out, sp⟩ = .ret q 0 none ∧
        Package.ReadBack env (some k) p0 p q ∧ q.headerCheckSum = crc8 (out.take (p.fullHL - 1))) :=
  package_exact env (some k) p p0 sp body h (fun _ k' hk' => by cases hk'; exact hk) hb

/-- With a key whose `Decode` inverts its `Encode`, every well-formed encrypted package, application or
response, is encoded and decoded back. Missing: as for C06. -/
theorem C08_encrypted_roundtrip_partial (env : Env) (k : SecretKey) (hk : ∀ x y, k.encode x = .ok y → k.decode y = .ok x)
    (p p0 : Package) (sp : Bytes) (h : p.WF env (some k)) (hsound : p.Sound) (_hcipher : p.encryptionAlg ≠ go!"00")
    (hfit : ∀ body, p.Body env (some k) body → p.fullHL + body.length < 2 ^ 16) :
    ∃ out q, (p.encode env (some k)).2 = .ok out ∧ Package.decode env (some k) p0 ⟨out, sp⟩ = .ret q 0 none ∧
      Package.Same env (some k) p0 p q ∧ q.headerCheckSum = crc8 (out.take (p.fullHL - 1)) := by
  obtain ⟨_, _, body, _, _, _, hb, _⟩ := id h
  obtain ⟨out, e1, _, e3⟩ := C08_encrypted_exact env k hk p p0 sp body h hb
  obtain ⟨q, e4, e5, e6⟩ := e3 (hfit _ hb)
  exact ⟨out, q, e1, e4, package_sound h hsound e5, e6⟩

/-- A toy cipher: reverse the bytes and prepend a marker. -/
def toyKey : SecretKey :=
  { encode := fun x => .ok (0xAA :: x.reverse)
    decode := fun y => match y with
      | 0xAA :: z => .ok z.reverse
      | _ => .error .key }

example : ∀ x y, toyKey.encode x = .ok y → toyKey.decode y = .ok x := by
  intro x y h; cases h; simp [toyKey]

example (env) : ({ appPackage with encryptionAlg := go!"10" } : Package).WF env (some toyKey) := by
  obtain ⟨⟨_, d, b, hd, hc, hw, hb, _, _⟩, _⟩ := appPackage_wf env none
  have e : ServiceDataSet.encode env [sdrExample, sdrExample2] = .ok appBody := by with_unfolding_all rfl
  cases hd
  exact ⟨by decide, _, 0xAA :: appBody.reverse, rfl, hc, hw, ⟨appBody, e, .inr ⟨by decide, toyKey, rfl, rfl⟩⟩, by decide, by decide⟩

/-- Without a key an encrypted package with a body is never encoded. -/
theorem C08_no_key_encode (env : Env) (p : Package) (hc : p.encryptionAlg ≠ go!"00") (hd : p.servicesFrameData ≠ none) (out : Bytes) :
    (p.encode env none).2 ≠ .ok out := by
  intro h
  obtain ⟨fl, body, _, hb, _⟩ := encode_ok env none (p := p) (p' := (p.encode env none).1) (out := out) (Prod.ext rfl h)
  unfold Package.Body at hb
  cases hs : p.servicesFrameData with
  | none => exact hd hs
  | some d =>
    rw [hs] at hb
    obtain ⟨x, _, ⟨h1, _⟩ | ⟨_, k, h1, _⟩⟩ := hb
    · exact hc h1
    · cases h1

/-- Without a key an encrypted frame is never accepted; and where the frame would be accepted with some
key, the code is 129. -/
theorem C08_no_key_decode (env : Env) (p : Package) (c : Slice) (he : Frame.Encrypted c.data) :
    (∀ q err, Package.decode env none p c ≠ .ret q 0 err) ∧
    (∀ k p1 q1, Package.decode env (some k) p1 c = .ret q1 0 none → ∃ q e, Package.decode env none p c = .ret q 129 (some e)) := by
  have hne : Frame.content env none c.data = .error .noKey := by
    unfold Frame.content Frame.clear
    rw [if_pos he]; rfl
  constructor
  · intro q err h
    obtain ⟨_, d, hd, _⟩ := C12_success_package env none p q c err h
    rw [hne] at hd; cases hd
  · intro k p1 q1 h
    have h0 := (decode_frame env (some k) p1 c).1
    rw [h] at h0
    obtain ⟨a1, a2, a3, a4, a5, a6, a7, a8, a9, a10⟩ := outcome_ok h0.symm
    have h1 : Frame.outcome env none c = .code 129 := by
      unfold Frame.outcome
      simp only
      rw [if_neg (by omega), if_neg (by omega), if_neg (by omega), if_neg a4, if_neg (by omega), if_pos (by rw [hne]; rfl)]
    obtain ⟨b1, b2⟩ := decode_frame env none p c
    rw [h1] at b1
    cases hd : Package.decode env none p c with
    | panic => rw [hd] at b1; cases b1
    | ret q code err =>
      rw [hd] at b1
      cases b1
      cases err with
      | some e => exact ⟨q, e, rfl⟩
      | none => exact absurd ((b2 q 129 none hd).1.mp rfl) (by decide)

/-! ## C09 -/

/-- The frame layout: header with HL as declared and its checksum last, then the body and its checksum,
low byte first; FDL is the length of the body; the whole is as long as HL and FDL say. -/
theorem C09_layout (env : Env) (key : Option SecretKey) (p p' : Package) (out : Bytes) (h : p.encode env key = (p', .ok out))
    (hhl : p.headerLength = 0 ∨ p.headerLength.toNat = p.fullHL) :
    ∃ body, p.Body env key body ∧ (body.length < 2 ^ 16 →
      (∃ head, head.length + 1 = p.fullHL ∧
        out = head ++ [crc8 head] ++ (if body = [] then [] else body ++ [UInt8.ofNat ((crc16 body).toNat % 256), UInt8.ofNat ((crc16 body).toNat / 256)])) ∧
      Frame.hl out = p.fullHL ∧ Frame.fdl out = body.length ∧
      out.length = Frame.hl out + (if Frame.fdl out = 0 then 0 else Frame.fdl out + 2)) := by
  obtain ⟨fl, body, h1, h2, h3, h4⟩ := encode_ok env key h
  refine ⟨body, h2, fun hl => ?_⟩
  rw [fillHL_eq hhl] at h3
  have hlen : (p'.headBytes fl).length + 1 = p.fullHL := by
    rw [headBytes_length, h3]
    unfold Package.fullHL
    show (if p.route = one then 15 else 10) + 1 = if p.route = one then 16 else 11
    split <;> rfl
  have hfull : p.fullHL < 256 := by unfold Package.fullHL; split <;> omega
  have hif : (if body.length % 65536 = 0 then [] else body ++ put16 (crc16 body)) =
      if body = [] then [] else body ++ put16 (crc16 body) := by
    rw [Nat.mod_eq_of_lt (show body.length < 65536 from hl)]
    simp only [List.length_eq_zero_iff]
  rw [hif] at h4
  have hx : out = p'.headBytes fl ++ ([crc8 (p'.headBytes fl)] ++ (if body = [] then [] else body ++ put16 (crc16 body))) := by
    rw [h4, List.append_assoc]
  have g := head_facts p' fl ([crc8 (p'.headBytes fl)] ++ (if body = [] then [] else body ++ put16 (crc16 body)))
  rw [← hx] at g
  obtain ⟨_, _, _, g3, _, g5, _⟩ := g
  have k1 : Frame.hl out = p.fullHL := by rw [g3, h3]; exact ofNat8_toNat _ hfull
  have k2 : Frame.fdl out = body.length := by
    rw [g5, h3]
    show (UInt16.ofNat body.length).toNat = _
    rw [UInt16.toNat_ofNat']; exact Nat.mod_eq_of_lt hl
  refine ⟨⟨p'.headBytes fl, hlen, h4⟩, k1, k2, ?_⟩
  rw [k1, k2, h4]
  by_cases hb : body = []
  · subst hb; simp; omega
  · have : body.length ≠ 0 := fun h => hb (List.length_eq_zero_iff.mp h)
    simp [hb, this, put16]; omega

example (env) : ∃ p' out, appPackage.encode env none = (p', .ok out) := by
  obtain ⟨⟨h1, d, b, h2, h3, h4, h5, h6, h7⟩, _⟩ := appPackage_wf env none
  obtain ⟨fl, head, _, _, _, h⟩ := encode_shape env none h1 h5 h7
  exact ⟨_, _, h⟩

/-- The server, having read the first ten bytes of such a frame, reads exactly the rest of it, if the
frame is shorter than 65536 bytes. -/
theorem C09_receiver_framing (env : Env) (key : Option SecretKey) (p p' : Package) (out : Bytes) (h : p.encode env key = (p', .ok out))
    (hhl : p.headerLength = 0 ∨ p.headerLength.toNat = p.fullHL)
    (hfit : ∀ body, p.Body env key body → p.fullHL + body.length + 2 < 2 ^ 16) :
    headerLen + bodyReadLen (out.take headerLen) = out.length := by
  obtain ⟨body, hb, hrest⟩ := C09_layout env key p p' out h hhl
  have hf := hfit body hb
  obtain ⟨⟨head, h1, h2⟩, h3, h4, h5⟩ := hrest (by omega)
  have hfull : p.fullHL = 11 ∨ p.fullHL = 16 := by unfold Package.fullHL; split <;> simp
  have hout : 10 ≤ out.length := by rw [h5, h3]; omega
  have e1 : (out.take 10).getD 3 0 = out.getD 3 0 := by
    rw [List.getD_eq_getElem?_getD, List.getD_eq_getElem?_getD, List.getElem?_take, if_pos (by omega)]
  have e2 : (le16 (((out.take 10).take 7).drop 5)).toNat = Frame.fdl out := by
    rw [List.take_take, Nat.min_eq_left (by omega)]
    have e3 : (out.take 7).drop 5 = [out.getD 5 0, out.getD 6 0] := by
      have : ∃ a b c d e f g t, out = a :: b :: c :: d :: e :: f :: g :: t := by
        rcases out with _ | ⟨b0, _ | ⟨b1, _ | ⟨b2, _ | ⟨b3, _ | ⟨b4, _ | ⟨b5, _ | ⟨b6, b⟩⟩⟩⟩⟩⟩⟩
        case cons.cons.cons.cons.cons.cons.cons => exact ⟨_, _, _, _, _, _, _, _, rfl⟩
        all_goals simp at hout
      obtain ⟨a, b, c, d, e, f, g, t, rfl⟩ := this
      rfl
    rw [e3]
    unfold Frame.fdl byteAt
    simp only [le16]
    have := UInt8.toNat_lt (out.getD 5 0)
    have := UInt8.toNat_lt (out.getD 6 0)
    rw [UInt16.toNat_ofNat']
    exact Nat.mod_eq_of_lt (by omega)
  have e4 : (out.getD 3 0).toUInt16.toNat = p.fullHL := by rw [UInt8.toNat_toUInt16]; exact h3
  unfold bodyReadLen headerLen
  simp only
  rw [e1]
  generalize le16 (((out.take 10).take 7).drop 5) = bl at *
  generalize (out.getD 3 0).toUInt16 = hl at *
  rw [h4] at e2
  rw [h5, h3, h4]
  have hgt : bl > 0 ↔ body.length ≠ 0 := by
    rw [gt_iff_lt, UInt16.lt_iff_toNat_lt, e2]
    show 0 < _ ↔ _
    omega
  by_cases hb0 : body.length = 0
  · rw [if_neg (fun h => hgt.mp h hb0), if_pos hb0, UInt16.toNat_sub_of_le _ _ (by rw [UInt16.le_iff_toNat_le, e4]; show 10 ≤ _; omega), e4]
    show 10 + (_ - 10) = _
    omega
  · rw [if_pos (hgt.mpr hb0), if_neg hb0]
    have e5 : (hl + (bl + 2)).toNat = p.fullHL + (body.length + 2) := by
      rw [UInt16.toNat_add, UInt16.toNat_add, e2, e4]
      show (_ + (_ + 2) % 65536) % 65536 = _
      omega
    rw [UInt16.toNat_sub_of_le _ _ (by rw [UInt16.le_iff_toNat_le, e5]; show 10 ≤ _; omega), e5]
    show 10 + (_ - 10) = _
    omega

/-! ## C10 -/

/-- Encoding again what `Encode` left in its receiver gives the same bytes (or the same error) and
changes nothing more. -/
theorem C10_repeatable (env : Env) (key : Option SecretKey) (p : Package) :
    (p.encode env key).1.encode env key = p.encode env key := encode_again env key p

/-- `Encode` changes only the header length, if that was 0, and the frame data length. -/
theorem C10_receiver (env : Env) (key : Option SecretKey) (p : Package) :
    ∃ hl fdl, (p.encode env key).1 = { p with headerLength := hl, frameDataLength := fdl } ∧ (p.headerLength ≠ 0 → hl = p.headerLength) := by
  have e : ∃ hl, p.fillHL = { p with headerLength := hl } ∧ (p.headerLength ≠ 0 → hl = p.headerLength) := by
    unfold Package.fillHL
    split
    · exact ⟨_, rfl, fun h => by contradiction⟩
    · exact ⟨p.headerLength, rfl, fun _ => rfl⟩
  obtain ⟨hl, e1, e2⟩ := e
  unfold Package.encode
  split
  · exact ⟨p.headerLength, p.frameDataLength, rfl, fun _ => rfl⟩
  · simp only
    rw [e1]
    split
    · exact ⟨hl, p.frameDataLength, rfl, e2⟩
    · rename_i body _
      exact ⟨hl, UInt16.ofNat body.length, rfl, e2⟩

/-! ## C14 -/

/-- Full statement of C14 (not provable): the result of encoding is accepted. In fact no package without
a body survives: its encoding is always refused with code 132. -/
theorem C14_false (env : Env) (key : Option SecretKey) (p p0 : Package) (sp : Bytes) (h : p.HeadWF) (hd : p.servicesFrameData = none) :
    ∃ out q, (p.encode env key).2 = .ok out ∧ Package.decode env key p0 ⟨out, sp⟩ = .ret q 132 (some .eof) := by
  obtain ⟨out, e, d⟩ := bodyless_rt env key p0 sp h hd
  exact ⟨out, _, e, d⟩

/-- What does work: the header fields are all in the receiver in spite of the error. Missing: success. -/
theorem C14_header_partial (env : Env) (key : Option SecretKey) (p p0 : Package) (sp : Bytes) (h : p.HeadWF)
    (hd : p.servicesFrameData = none) :
    ∃ out q, (p.encode env key).2 = .ok out ∧ out.length = p.fullHL ∧ Package.decode env key p0 ⟨out, sp⟩ = .ret q 132 (some .eof) ∧
      q = { p with
        headerLength := UInt8.ofNat p.fullHL
        frameDataLength := 0
        peerAddress := present p.route p.peerAddress p0.peerAddress
        recipientAddress := present p.route p.recipientAddress p0.recipientAddress
        timeToLive := present p.route p.timeToLive p0.timeToLive
        headerCheckSum := crc8 (out.take (p.fullHL - 1))
        servicesFrameData := p0.servicesFrameData
        servicesFrameDataCheckSum := p0.servicesFrameDataCheckSum } := by
  obtain ⟨out, e, d⟩ := bodyless_rt env key p0 sp h hd
  refine ⟨out, _, e, ?_, d, rfl⟩
  obtain ⟨body, hb, hr⟩ := C09_layout env key p (p.encode env key).1 out (Prod.ext rfl e) h.2.2.2.2.2
  unfold Package.Body at hb
  rw [hd] at hb
  subst hb
  obtain ⟨_, h1, h2, h3⟩ := hr (by simp)
  rw [h3, h1, h2]; rfl

example : (manyRecords 0).HeadWF ∧ ({ appPackage with servicesFrameData := none } : Package).HeadWF := by decide

/-! ## C15 -/

/-- What `Encode` does with a body of any length: FDL is the length modulo 65536; if that is 0 no body is
emitted, else all of it is. -/
theorem C15_exact (env : Env) (key : Option SecretKey) (p p' : Package) (out : Bytes) (h : p.encode env key = (p', .ok out)) :
    ∃ head body, p.Body env key body ∧ head.length = (if p.route = go!"1" then 15 else 10) ∧ Frame.fdl out = body.length % 65536 ∧
      out = head ++ [crc8 head] ++ (if body.length % 65536 = 0 then [] else body ++ put16 (crc16 body)) := by
  obtain ⟨fl, body, h1, h2, h3, h4⟩ := encode_ok env key h
  refine ⟨p'.headBytes fl, body, h2, ?_, ?_, h4⟩
  · rw [headBytes_length, h3]
    have : p.fillHL.route = p.route := by unfold Package.fillHL; split <;> rfl
    show (if p.fillHL.route = one then 15 else 10) = _
    rw [this]
  · have g := head_facts p' fl ([crc8 (p'.headBytes fl)] ++ (if body.length % 65536 = 0 then [] else body ++ put16 (crc16 body)))
    rw [← List.append_assoc, ← h4] at g
    obtain ⟨_, _, _, _, _, g5, _⟩ := g
    rw [g5, h3]
    show (UInt16.ofNat body.length).toNat = _
    exact UInt16.toNat_ofNat'

theorem manyRecords_emitted (env key) (n : Nat) (h : 7 * n % 65536 ≠ 0) :
    (manyRecords n).HeadWF ∧ ∃ p' out head, (manyRecords n).encode env key = (p', .ok out) ∧
      out = head ++ [crc8 head] ++ (manyBody n ++ put16 (crc16 (manyBody n))) ∧ Frame.fdl out = 7 * n % 65536 := by
  refine ⟨(by decide : (manyRecords 0).HeadWF), ?_⟩
  have hb := manyRecords_body env key n
  have henc : ∃ p' out, (manyRecords n).encode env key = (p', .ok out) := by
    unfold Package.encode
    have hf : parseFlags ((manyRecords n).prefix_ ++ (manyRecords n).route ++ (manyRecords n).encryptionAlg ++
        (manyRecords n).compression ++ (manyRecords n).priority) = .ok 0 :=
      (by decide +kernel : parseFlags ((manyRecords 0).prefix_ ++ (manyRecords 0).route ++ (manyRecords 0).encryptionAlg ++
        (manyRecords 0).compression ++ (manyRecords 0).priority) = .ok 0)
    rw [hf]
    simp only
    have : (manyRecords n).fillHL.bodyBytes env key = .ok (manyBody n) := (bodyBytes_iff env key _ _).mpr hb
    rw [this]
    exact ⟨_, _, rfl⟩
  obtain ⟨p', out, henc⟩ := henc
  obtain ⟨head, body, h1, _, h3, h4⟩ := C15_exact env key _ p' out henc
  have : body = manyBody n := by
    have a := (bodyBytes_iff env key _ body).mpr h1
    rw [(bodyBytes_iff env key _ _).mpr hb] at a
    injection a with a; exact a.symm
  subst this
  rw [manyBody_length] at h3 h4
  rw [if_neg h] at h4
  exact ⟨p', out, head, henc, h4, h3⟩

/-- Full statement of C15 (not provable): whenever `Encode` succeeds, FDL is the number of body bytes
emitted. A package of 9363 records is emitted with all its 65541 body bytes but FDL = 5. -/
theorem C15_false (env : Env) (key : Option SecretKey) : ∃ (p p' : Package) (out head body : Bytes), p.HeadWF ∧ p.Body env key body ∧
    p.encode env key = (p', .ok out) ∧ out = head ++ [crc8 head] ++ (body ++ put16 (crc16 body)) ∧ body.length = 65541 ∧ Frame.fdl out = 5 := by
  have hb := manyRecords_body env key
  have h := manyRecords_emitted env key
  obtain ⟨n, hn⟩ : ∃ n, n = 9363 := ⟨_, rfl⟩
  obtain ⟨h1, p', out, head, h2, h3, h4⟩ := h n (by omega)
  exact ⟨_, p', out, head, manyBody n, h1, hb n, h2, h3, by rw [manyBody_length]; omega, by rw [h4]; omega⟩

/-- For bodies of at most 65535 bytes the length is right. Missing: longer bodies, see `C15_false`. -/
theorem C15_length_partial (env : Env) (key : Option SecretKey) (p p' : Package) (out : Bytes) (h : p.encode env key = (p', .ok out))
    (hfit : ∀ body, p.Body env key body → body.length < 2 ^ 16) :
    ∃ head body, p.Body env key body ∧ head.length = (if p.route = go!"1" then 15 else 10) ∧ Frame.fdl out = body.length ∧
      out = head ++ [crc8 head] ++ (if body = [] then [] else body ++ put16 (crc16 body)) := by
  obtain ⟨head, body, h1, h2, h3, h4⟩ := C15_exact env key p p' out h
  rw [Nat.mod_eq_of_lt (show body.length < 65536 from hfit body h1)] at h3 h4
  simp only [List.length_eq_zero_iff] at h4
  exact ⟨head, body, h1, h2, h3, h4⟩

end Egts
