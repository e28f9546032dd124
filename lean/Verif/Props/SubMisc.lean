import Verif.Proofs.Flags
import Verif.Proofs.Record
import Verif.Props.PosWire

/-! # Lengths, malformed flags, truncation, optional fields (C37-C40) -/

namespace Egts

/-! ## C37 -/

theorem C37_subrecord_length (env : Env) (d : SubData) :
    (∀ b, d.encode env = .ok b → (d.length env).toNat = b.length % 2 ^ 16) ∧
    (∀ e, d.encode env = .error e → d.length env = 0) := by
  constructor
  · intro b h
    rw [length_eq env d b h, UInt16.toNat_ofNat']
  · intro e h
    cases d with
    | absAn d => cases h
    | _ => simp only [SubData.length, h, lengthOf]

theorem C37_record_set_length (env : Env) (rds : List RecordData) :
    (∀ b, RecordDataSet.encode env rds = .ok b → ∃ l, RecordDataSet.length env rds = .ok l ∧ l.toNat = b.length % 2 ^ 16) ∧
    (∀ e, RecordDataSet.encode env rds = .error (.err e) → RecordDataSet.length env rds = .ok 0) := by
  constructor
  · intro b h; exact ⟨_, by rw [RecordDataSet.length, h]; rfl, UInt16.toNat_ofNat' ..⟩
  · intro e h; rw [RecordDataSet.length, h]; rfl

theorem C37_service_set_length (env : Env) (s : List ServiceDataRecord) :
    (∀ b, ServiceDataSet.encode env s = .ok b → ∃ l, ServiceDataSet.length env s = .ok l ∧ l.toNat = b.length % 2 ^ 16) ∧
    (∀ e, ServiceDataSet.encode env s = .error (.err e) → ServiceDataSet.length env s = .ok 0) := by
  constructor
  · intro b h; exact ⟨_, by rw [ServiceDataSet.length, h]; rfl, UInt16.toNat_ofNat' ..⟩
  · intro e h; rw [ServiceDataSet.length, h]; rfl

theorem C37_response_length (env : Env) (s : PtResponse) :
    (∀ b, s.encode env = .ok b → ∃ l, s.length env = .ok l ∧ l.toNat = b.length % 2 ^ 16) ∧
    (∀ e, s.encode env = .error (.err e) → s.length env = .ok 0) := by
  constructor
  · intro b h; exact ⟨_, by rw [PtResponse.length, h]; rfl, UInt16.toNat_ofNat' ..⟩
  · intro e h; rw [PtResponse.length, h]; rfl

example (env : Env) : ∃ b, (SubData.absAn { sensorNumber := 1, value := 70000 }).encode env = .ok b ∧ b.length = 4 :=
  ⟨_, rfl, rfl⟩
example (env : Env) : (SubData.state { nms := go!"x" }).encode env = .error .syntax := rfl

/-! ## C38 -/

/-- The flag strings of a subrecord, in the order in which it concatenates them (one string per
flag byte). The terminal identity is listed too. -/
def SubData.flagStrings : SubData → List Bytes
  | .state d => [go!"00000" ++ d.nms ++ d.ibu ++ d.bbu]
  | .liquid d => [go!"0" ++ d.errorFlag ++ d.valueUnit ++ d.rawDataFlag ++ fmt3 d.sensorNumber]
  | .extPos d => [go!"000" ++ d.nsfe ++ d.sfe ++ d.pfe ++ d.hfe ++ d.vfe]
  | .adSens d => [d.dioe8 ++ d.dioe7 ++ d.dioe6 ++ d.dioe5 ++ d.dioe4 ++ d.dioe3 ++ d.dioe2 ++ d.dioe1,
      d.asfe1 ++ d.asfe2 ++ d.asfe3 ++ d.asfe4 ++ d.asfe5 ++ d.asfe6 ++ d.asfe7 ++ d.asfe8]
  | .counters d => [d.cfe8 ++ d.cfe7 ++ d.cfe6 ++ d.cfe5 ++ d.cfe4 ++ d.cfe3 ++ d.cfe2 ++ d.cfe1]
  | .term d => [d.mne ++ d.bse ++ d.nide ++ d.ssra ++ d.lngce ++ d.imsie ++ d.imeie ++ d.hdide]
  | .pos d => [d.alte ++ d.lohs ++ d.lahs ++ d.mv ++ d.bb ++ d.cs ++ d.fix ++ d.vld]
  | _ => []

/-- Full statement of C38 for subrecords (not provable): the theorem below without its last
hypothesis. The terminal identity drops the error and writes a made-up flag byte. -/
theorem C38_false (env : Env) : ∃ d : SubData, (∃ s ∈ d.flagStrings, ¬ SpellsByte s) ∧ ∃ b, d.encode env = .ok b :=
  ⟨.term { mne := go!"x" }, ⟨go!"x", by decide +kernel, by decide +kernel⟩, _, rfl⟩

theorem C38_subrecord_flags_partial (env : Env) (d : SubData) (h : ∃ s ∈ d.flagStrings, ¬ SpellsByte s)
    (hk : ∀ t, d ≠ .term t) : ∃ e, d.encode env = .error e := by
  obtain ⟨s, hs, hn⟩ := h
  cases d with
  | term d => exact absurd rfl (hk d)
  | adSens d =>
    simp only [SubData.flagStrings, List.mem_cons, List.not_mem_nil, or_false] at hs
    simp only [SubData.encode, SrAdSensorsData.encode]
    rcases hs with rfl | rfl
    · obtain ⟨e, he⟩ := parseFlags_error hn
      exact ⟨e, by rw [he]; rfl⟩
    · obtain ⟨e, he⟩ := parseFlags_error hn
      rw [he]
      cases parseFlags (d.dioe8 ++ d.dioe7 ++ d.dioe6 ++ d.dioe5 ++ d.dioe4 ++ d.dioe3 ++ d.dioe2 ++ d.dioe1) with
      | error e' => exact ⟨e', rfl⟩
      | ok v => exact ⟨e, rfl⟩
  | state d =>
    simp only [SubData.flagStrings, List.mem_singleton] at hs; subst hs
    obtain ⟨e, he⟩ := parseFlags_error hn
    exact ⟨e, by simp only [SubData.encode, SrStateData.encode, he]; rfl⟩
  | liquid d =>
    simp only [SubData.flagStrings, List.mem_singleton] at hs; subst hs
    obtain ⟨e, he⟩ := parseFlags_error hn
    exact ⟨e, by simp only [SubData.encode, SrLiquidLevelSensor.encode, he]; rfl⟩
  | extPos d =>
    simp only [SubData.flagStrings, List.mem_singleton] at hs; subst hs
    obtain ⟨e, he⟩ := parseFlags_error hn
    exact ⟨e, by simp only [SubData.encode, SrExtPosData.encode, he]; rfl⟩
  | counters d =>
    simp only [SubData.flagStrings, List.mem_singleton] at hs; subst hs
    obtain ⟨e, he⟩ := parseFlags_error hn
    exact ⟨e, by simp only [SubData.encode, SrCountersData.encode, he]; rfl⟩
  | pos d =>
    simp only [SubData.flagStrings, List.mem_singleton] at hs; subst hs
    obtain ⟨e, he⟩ := parseFlags_error hn
    exact ⟨e, by simp only [SubData.encode, SrPosData.encode, he]; rfl⟩
  | _ => simp [SubData.flagStrings] at hs

/-- A service record with malformed flags is not encoded. -/
theorem C38_record_flags (env : Env) (r : ServiceDataRecord)
    (h : ¬ SpellsByte (r.ssod ++ r.rsod ++ r.grp ++ r.rpp ++ r.tmfe ++ r.evfe ++ r.obfe)) :
    ∃ f, r.encode env = .error f := by
  obtain ⟨e, he⟩ := parseFlags_error h
  unfold ServiceDataRecord.encode
  rw [he]
  cases RecordDataSet.encode env r.recordDataSet with
  | error f => exact ⟨f, rfl⟩
  | ok b => exact ⟨.err e, rfl⟩

/-- A packet with malformed flags is not encoded, and the packet object is left alone. -/
theorem C38_package_flags (env : Env) (key : Option SecretKey) (p : Package)
    (h : ¬ SpellsByte (p.prefix_ ++ p.route ++ p.encryptionAlg ++ p.compression ++ p.priority)) :
    ∃ e, p.encode env key = (p, .error (.err e)) := by
  obtain ⟨e, he⟩ := parseFlags_error h
  exact ⟨e, by unfold Package.encode; rw [he]⟩

/-- Conversely, well-spelt flags are never the reason for an error: the flag byte is the number
spelt. -/
theorem C38_flag_byte (s : Bytes) (h : SpellsByte s) : ∃ v, parseFlags s = .ok v ∧ v.toNat = binVal s :=
  ⟨_, (parseFlags_iff s _).mpr ⟨h, rfl⟩, by
    rw [UInt8.toNat_ofNat']; exact Nat.mod_eq_of_lt h.2.2⟩

example : ¬ SpellsByte [] ∧ ¬ SpellsByte (go!"102") ∧ ¬ SpellsByte (go!"100000000") ∧ SpellsByte (go!"10000001") := by
  decide +kernel
example : ∃ s ∈ (SubData.pos { alte := go!"2" }).flagStrings, ¬ SpellsByte s := ⟨_, List.mem_singleton.mpr rfl, by decide +kernel⟩

/-! ## C39 -/

/-- Full statement of C39 (not provable): a strict prefix of an encoded subrecord is rejected. -/
theorem C39_false : ∃ (d : SrAbsCntrData) (b : Bytes), d.encode = .ok b ∧
    ∃ n, n < b.length ∧ SrAbsCntrData.decode {} (b.take n) = .ok { d with counterValue := 7 } ∧ d.counterValue ≠ 7 :=
  ⟨{ counterNumber := 1, counterValue := 65536 * 3 + 7 }, [1, 7, 0, 3], by decide +kernel, 3, by decide, by decide +kernel,
    by decide⟩

theorem C39_record_response_partial (env : Env) (d d0 : SrResponse) (b : Bytes) (h : d.encode = .ok b) (n : Nat)
    (hn : n < b.length) : ∃ e, SrResponse.decode env d0 (b.take n) = .error e := by
  simp only [SrResponse.encode, Except.ok.injEq] at h
  subst h
  simp [put16] at hn
  have : n = 0 ∨ n = 1 ∨ n = 2 := by omega
  rcases this with rfl | rfl | rfl <;>
    exact ⟨.eof, by simp [SrResponse.decode, depthFor, srRespDecode, SrResponse.decodeHead, put16, bufferRead, zeros, readByte, ok_bind, error_bind]⟩

theorem C39_result_code_partial (d d0 : SrResultCode) (b : Bytes) (h : d.encode = .ok b) (n : Nat)
    (hn : n < b.length) : ∃ e, SrResultCode.decode d0 (b.take n) = .error e := by
  simp only [SrResultCode.encode, Except.ok.injEq] at h
  subst h
  have : n = 0 := by simpa using hn
  subst this
  exact ⟨.eof, rfl⟩

theorem C39_state_data_partial (d d0 : SrStateData) (b : Bytes) (h : d.encode = .ok b) (n : Nat)
    (hn : n < b.length) : ∃ e, SrStateData.decode d0 (b.take n) = .error e := by
  simp only [SrStateData.encode, bind_eq_ok, pure_eq_ok, Except.ok.injEq] at h
  obtain ⟨f, _, rfl⟩ := h
  simp at hn
  have : n = 0 ∨ n = 1 ∨ n = 2 ∨ n = 3 ∨ n = 4 := by omega
  rcases this with rfl | rfl | rfl | rfl | rfl <;>
    exact ⟨.eof, by simp [SrStateData.decode, readByte, ok_bind, error_bind]⟩

theorem C39_abs_analog_partial (d d0 : SrAbsAnSensData) (b : Bytes) (h : d.encode = .ok b) (n : Nat)
    (hn : n < b.length) : ∃ e, SrAbsAnSensData.decode d0 (b.take n) = .error e := by
  simp only [SrAbsAnSensData.encode, Except.ok.injEq] at h
  subst h
  simp only [List.length_cons, List.length_nil] at hn
  refine ⟨.badSize, ?_⟩
  rw [SrAbsAnSensData.decode, if_pos]
  rw [List.length_take]
  omega

/-- A position without altitude. -/
theorem C39_pos_partial (env : Env) (d d0 : SrPosData) (b : Bytes) (h : d.encode env = .ok b) (ha : d.alte = go!"0")
    (n : Nat) (hn : n < b.length) : ∃ e, SrPosData.decode d0 (b.take n) = .error e := by
  have hl : b.length = 21 := by
    simp only [SrPosData.encode, bind_eq_ok, pure_eq_ok, Except.ok.injEq, ha] at h
    obtain ⟨f, _, rfl⟩ := h
    simp [put32, put16, put24, optBytes, one]
  cases hd : SrPosData.decode d0 (b.take n) with
  | error e => exact ⟨e, rfl⟩
  | ok y =>
    have := pos_len _ _ _ hd
    rw [List.length_take] at this
    omega

theorem readCString_noNul (s : Bytes) (h : (0 : UInt8) ∉ s) : readCString s = .error .eof := by
  induction s with
  | nil => rfl
  | cons x s ih =>
    simp only [List.mem_cons, not_or] at h
    rw [readCString, if_neg (fun e => h.1 e.symm), ih h.2]

/-- Strict prefixes of two NUL-terminated texts in a row. -/
theorem two_strings (u p : Bytes) (hu : NoNul u) (hp : NoNul p) (n : Nat) (hn : n < (u ++ 0 :: (p ++ [0])).length) :
    readCString ((u ++ 0 :: (p ++ [0])).take n) = .error .eof ∨
    ∃ r, readCString ((u ++ 0 :: (p ++ [0])).take n) = .ok (u, r) ∧ readCString r = .error .eof := by
  simp only [List.length_append, List.length_cons, List.length_nil] at hn
  by_cases h1 : n ≤ u.length
  · left
    rw [List.take_append_of_le_length h1]
    exact readCString_noNul _ (fun hm => hu (List.mem_of_mem_take hm))
  · right
    obtain ⟨k, rfl⟩ : ∃ k, n = u.length + 1 + k := ⟨n - u.length - 1, by omega⟩
    refine ⟨(p ++ [0]).take k, ?_, ?_⟩
    · rw [show u.length + 1 + k = u.length + (k + 1) by omega, List.take_length_add_append, List.take_succ_cons]
      exact readCString_append u _ hu
    · rw [List.take_append_of_le_length (by omega)]
      exact readCString_noNul _ (fun hm => hp (List.mem_of_mem_take hm))

/-- Authentication info without the optional third text. -/
theorem C39_auth_partial (d d0 : SrAuthInfo) (hw : d.WF) (hs : d.serverSequence = []) (b : Bytes) (h : d.encode = .ok b) (n : Nat)
    (hn : n < b.length) : ∃ e, SrAuthInfo.decode d0 (b.take n) = .error e := by
  simp only [SrAuthInfo.encode, Except.ok.injEq, hs, ne_eq, not_true_eq_false, if_false, List.append_nil, List.append_assoc,
    List.cons_append, List.nil_append] at h
  subst h
  rcases two_strings _ _ hw.1 hw.2.1 n hn with h | ⟨r, h1, h2⟩
  · exact ⟨.eof, by rw [SrAuthInfo.decode, h]; rfl⟩
  · exact ⟨.eof, by rw [SrAuthInfo.decode, h1, ok_bind]; simp only [h2]; rfl⟩

theorem C39_module_partial (d d0 : SrModuleData) (hw : d.WF) (b : Bytes) (h : d.encode = .ok b) (n : Nat)
    (hn : n < b.length) : ∃ e, SrModuleData.decode d0 (b.take n) = .error e := by
  simp only [SrModuleData.encode, Except.ok.injEq, put32, put16, List.append_assoc, List.cons_append, List.nil_append] at h
  subst h
  by_cases hk : n < 11
  · have : n = 0 ∨ n = 1 ∨ n = 2 ∨ n = 3 ∨ n = 4 ∨ n = 5 ∨ n = 6 ∨ n = 7 ∨ n = 8 ∨ n = 9 ∨ n = 10 := by omega
    rcases this with rfl | rfl | rfl | rfl | rfl | rfl | rfl | rfl | rfl | rfl | rfl <;>
      exact ⟨.eof, by simp [SrModuleData.decode, readByte, readerRead, zeros, ok_bind, error_bind]⟩
  · obtain ⟨k, rfl⟩ : ∃ k, n = k + 11 := ⟨n - 11, by omega⟩
    simp only [List.length_cons, Nat.add_lt_add_iff_right] at hn
    have hn' : k < (d.serialNumber ++ 0 :: (d.description ++ [0])).length := by
      simpa using hn
    refine ⟨.eof, ?_⟩
    simp only [List.take_succ_cons, SrModuleData.decode, readByte, ok_bind, readerRead, zeros, List.replicate, List.length_cons,
      List.length_nil, List.drop_succ_cons, List.drop_zero, List.take_zero, List.drop_nil, reduceCtorEq, if_false, List.append_nil]
    rcases two_strings _ _ hw.1 hw.2 k hn' with h | ⟨r, h1, h2⟩
    · rw [h]; rfl
    · rw [h1, ok_bind]; simp only [h2]; rfl

example : ∃ b, SrModuleData.encode { serialNumber := go!"ab", description := go!"c" } = .ok b ∧ 12 < b.length := ⟨_, rfl, by decide⟩

/-! ## C40: on arbitrary input and for arbitrary receivers -/

theorem optU8_absent {f : Bytes} {o v : UInt8} {r r'} (h : optU8 f o r = .ok (v, r')) : f ≠ one → v = o := by
  intro hf; rw [optU8, if_neg hf] at h; cases h; rfl
theorem optU16_absent {f : Bytes} {o v : UInt16} {t r t' r'} (h : optU16 f o t r = .ok (v, t', r')) : f ≠ one → v = o := by
  intro hf; rw [optU16, if_neg hf] at h; cases h; rfl
theorem optU24_absent {f : Bytes} {o v : UInt32} {t r t' r'} (h : optU24 f o t r = .ok (v, t', r')) : f ≠ one → v = o := by
  intro hf; rw [optU24, if_neg hf] at h; cases h; rfl
theorem optN_absent {f : Bytes} {n : Nat} {o v r r'} (h : optN f n o r = .ok (v, r')) : f ≠ one → v = o := by
  intro hf; rw [optN, if_neg hf] at h; cases h; rfl

theorem C40_ext_pos (d0 y : SrExtPosData) (b : Bytes) (h : SrExtPosData.decode d0 b = .ok y) :
    (y.vfe ≠ go!"1" → y.vdop = d0.vdop) ∧ (y.hfe ≠ go!"1" → y.hdop = d0.hdop) ∧ (y.pfe ≠ go!"1" → y.pdop = d0.pdop) ∧
    (y.sfe ≠ go!"1" → y.satellites = d0.satellites) ∧
    (y.nsfe ≠ go!"1" → y.navigationSystem = d0.navigationSystem) := by
  simp only [SrExtPosData.decode, bind_eq_ok, Prod.exists, pure_eq_ok, Except.ok.injEq] at h
  obtain ⟨_, _, _, _, _, _, h1, _, _, _, h2, _, _, _, h3, _, _, h4, _, _, _, h5, rfl⟩ := h
  exact ⟨optU16_absent h1, optU16_absent h2, optU16_absent h3, optU8_absent h4, optU16_absent h5⟩

theorem C40_ad_sensors (d0 y : SrAdSensorsData) (b : Bytes) (h : SrAdSensorsData.decode d0 b = .ok y) :
    (y.dioe1 ≠ go!"1" → y.adio1 = d0.adio1) ∧ (y.dioe2 ≠ go!"1" → y.adio2 = d0.adio2) ∧
    (y.dioe3 ≠ go!"1" → y.adio3 = d0.adio3) ∧ (y.dioe4 ≠ go!"1" → y.adio4 = d0.adio4) ∧
    (y.dioe5 ≠ go!"1" → y.adio5 = d0.adio5) ∧ (y.dioe6 ≠ go!"1" → y.adio6 = d0.adio6) ∧
    (y.dioe7 ≠ go!"1" → y.adio7 = d0.adio7) ∧ (y.dioe8 ≠ go!"1" → y.adio8 = d0.adio8) ∧
    (y.asfe1 ≠ go!"1" → y.ans1 = d0.ans1) ∧ (y.asfe2 ≠ go!"1" → y.ans2 = d0.ans2) ∧
    (y.asfe3 ≠ go!"1" → y.ans3 = d0.ans3) ∧ (y.asfe4 ≠ go!"1" → y.ans4 = d0.ans4) ∧
    (y.asfe5 ≠ go!"1" → y.ans5 = d0.ans5) ∧ (y.asfe6 ≠ go!"1" → y.ans6 = d0.ans6) ∧
    (y.asfe7 ≠ go!"1" → y.ans7 = d0.ans7) ∧ (y.asfe8 ≠ go!"1" → y.ans8 = d0.ans8) := by
  simp only [SrAdSensorsData.decode, bind_eq_ok, Prod.exists, pure_eq_ok, Except.ok.injEq] at h
  obtain ⟨_, _, _, _, _, _, _, _, _, _, _, h1, _, _, h2, _, _, h3, _, _, h4, _, _, h5, _, _, h6, _, _, h7, _, _, h8,
    _, _, _, g1, _, _, _, g2, _, _, _, g3, _, _, _, g4, _, _, _, g5, _, _, _, g6, _, _, _, g7, _, _, _, g8, rfl⟩ := h
  exact ⟨optU8_absent h1, optU8_absent h2, optU8_absent h3, optU8_absent h4, optU8_absent h5, optU8_absent h6, optU8_absent h7,
    optU8_absent h8, optU24_absent g1, optU24_absent g2, optU24_absent g3, optU24_absent g4, optU24_absent g5, optU24_absent g6,
    optU24_absent g7, optU24_absent g8⟩

/-- Counter 1 is the exception: it is also overwritten by counter 2 (C29). -/
theorem C40_counters_partial (d0 y : SrCountersData) (b : Bytes) (h : SrCountersData.decode d0 b = .ok y) :
    (y.cfe1 ≠ go!"1" → y.cfe2 ≠ go!"1" → y.cn1 = d0.cn1) ∧ (y.cfe2 ≠ go!"1" → y.cn2 = d0.cn2) ∧
    (y.cfe3 ≠ go!"1" → y.cn3 = d0.cn3) ∧ (y.cfe4 ≠ go!"1" → y.cn4 = d0.cn4) ∧
    (y.cfe5 ≠ go!"1" → y.cn5 = d0.cn5) ∧ (y.cfe6 ≠ go!"1" → y.cn6 = d0.cn6) ∧
    (y.cfe7 ≠ go!"1" → y.cn7 = d0.cn7) ∧ (y.cfe8 ≠ go!"1" → y.cn8 = d0.cn8) := by
  simp only [SrCountersData.decode, bind_eq_ok, Prod.exists, pure_eq_ok, Except.ok.injEq] at h
  obtain ⟨_, _, _, _, _, _, g1, _, _, _, g2, _, _, _, g3, _, _, _, g4, _, _, _, g5, _, _, _, g6, _, _, _, g7, _, _, _, g8, rfl⟩ := h
  exact ⟨fun a b => (optU24_absent g2 b).trans (optU24_absent g1 a), fun _ => rfl, optU24_absent g3, optU24_absent g4,
    optU24_absent g5, optU24_absent g6, optU24_absent g7, optU24_absent g8⟩

theorem C40_term_identity (d0 y : SrTermIdentity) (b : Bytes) (h : SrTermIdentity.decode d0 b = .ok y) :
    (y.hdide ≠ go!"1" → y.homeDispatcherIdentifier = d0.homeDispatcherIdentifier) ∧
    (y.imeie ≠ go!"1" → y.imei = d0.imei) ∧ (y.imsie ≠ go!"1" → y.imsi = d0.imsi) ∧
    (y.lngce ≠ go!"1" → y.languageCode = d0.languageCode) ∧
    (y.nide ≠ go!"1" → y.networkIdentifier = d0.networkIdentifier) ∧
    (y.bse ≠ go!"1" → y.bufferSize = d0.bufferSize) ∧ (y.mne ≠ go!"1" → y.mobileNumber = d0.mobileNumber) := by
  simp only [SrTermIdentity.decode, bind_eq_ok, Prod.exists, pure_eq_ok, Except.ok.injEq] at h
  obtain ⟨_, _, _, _, _, _, _, _, _, h1, _, _, h2, _, _, h3, _, _, h4, _, _, h5, _, _, _, h6, _, _, h7, rfl⟩ := h
  exact ⟨optU16_absent h1, optN_absent h2, optN_absent h3, optN_absent h4, optN_absent h5, optU16_absent h6, optN_absent h7⟩

theorem C40_pos (d0 y : SrPosData) (b : Bytes) (h : SrPosData.decode d0 b = .ok y) :
    (y.alte ≠ go!"1" → y.altitude = d0.altitude) ∧ y.sourceData = d0.sourceData := by
  obtain ⟨_, rfl⟩ := (C61_pos_decode_exact d0 y b).mp h
  refine ⟨fun hf => ?_, rfl⟩
  have : PosWire.flag b 7 ≠ 1 := fun h7 => hf (by simp [PosWire.record, bitStr, h7])
  exact if_neg this

/-- The optional fields of a service record. A record is always decoded into a fresh structure, so
absent fields are zero. -/
theorem C40_service_record (b r : Bytes) (y : ServiceDataRecord) (h : sdrHead b = .ok (y, r)) :
    (y.obfe ≠ go!"1" → y.objectIdentifier = 0) ∧ (y.evfe ≠ go!"1" → y.eventIdentifier = 0) ∧
    (y.tmfe ≠ go!"1" → y.time = zeroTime) := by
  simp only [sdrHead, bind_eq_ok, Prod.exists, pure_eq_ok, Except.ok.injEq, Prod.mk.injEq] at h
  obtain ⟨_, _, _, _, _, _, _, _, _, _, _, h1, _, _, h2, _, _, h3, _, _, _, _, _, _, rfl, rfl⟩ := h
  refine ⟨fun hf => ?_, fun hf => ?_, fun hf => ?_⟩
  · simp only [optU32, if_neg (show ¬ _ = one from hf), pure_eq_ok, Except.ok.injEq, Prod.mk.injEq] at h1; exact h1.1.symm
  · simp only [optU32, if_neg (show ¬ _ = one from hf), pure_eq_ok, Except.ok.injEq, Prod.mk.injEq] at h2; exact h2.1.symm
  · simp only [optTime, if_neg (show ¬ _ = one from hf), pure_eq_ok, Except.ok.injEq, Prod.mk.injEq] at h3; exact h3.1.symm

example : SrExtPosData.decode { vdop := 9, hdop := 8 } [0b00001, 1, 2] =
    .ok { nsfe := go!"0", sfe := go!"0", pfe := go!"0", hfe := go!"0", vfe := go!"1", vdop := 513, hdop := 8 } := by decide +kernel

end Egts
