import Verif.Spec.Frame
import Verif.Proofs.PosWire
import Verif.Proofs.Fuel

/-! # `Package.decode` by byte positions -/

namespace Egts

/-- Receiver after the ten fixed header bytes. -/
def head10 (p : Package) (b : Bytes) : Package :=
  let f := fun i => bitStr (byteAt b 2 / 2 ^ i % 2)
  { p with
    protocolVersion := UInt8.ofNat (byteAt b 0)
    securityKeyID := UInt8.ofNat (byteAt b 1)
    prefix_ := f 7 ++ f 6
    route := f 5
    encryptionAlg := f 4 ++ f 3
    compression := f 2
    priority := f 1 ++ f 0
    headerLength := UInt8.ofNat (Frame.hl b)
    headerEncoding := UInt8.ofNat (byteAt b 4)
    frameDataLength := UInt16.ofNat (Frame.fdl b)
    packetIdentifier := UInt16.ofNat (Frame.pid b)
    packetType := UInt8.ofNat (Frame.pt b) }

theorem setFlags_eq (p : Package) (x : UInt8) :
    p.setFlags x = { p with
      prefix_ := bitStr (x.toNat / 2 ^ 7 % 2) ++ bitStr (x.toNat / 2 ^ 6 % 2)
      route := bitStr (x.toNat / 2 ^ 5 % 2)
      encryptionAlg := bitStr (x.toNat / 2 ^ 4 % 2) ++ bitStr (x.toNat / 2 ^ 3 % 2)
      compression := bitStr (x.toNat / 2 ^ 2 % 2)
      priority := bitStr (x.toNat / 2 ^ 1 % 2) ++ bitStr (x.toNat / 2 ^ 0 % 2) } := by
  simp only [← bitStr_char]
  rfl

/-- The header up to PT. -/
theorem decode_head (env key p) (c : Slice) :
    (c.data.length < 10 → ∃ p', Package.decode env key p c = fail p' 131 .eof ∧ p'.servicesFrameData = p.servicesFrameData) ∧
    (10 ≤ c.data.length → ∃ tmp, tmp.length = 2 ∧
      Package.decode env key p c = (head10 p c.data).decodeRoute env key c tmp (c.data.drop 10)) := by
  obtain ⟨b, sp⟩ := c
  rcases b with _ | ⟨b0, _ | ⟨b1, _ | ⟨b2, _ | ⟨b3, _ | ⟨b4, _ | ⟨b5, _ | ⟨b6, _ | ⟨b7, _ | ⟨b8, _ | ⟨b9, b⟩⟩⟩⟩⟩⟩⟩⟩⟩⟩
  case cons.cons.cons.cons.cons.cons.cons.cons.cons.cons =>
    refine ⟨fun h => by simp at h; omega, fun _ => ⟨[b7, b8], rfl, ?_⟩⟩
    simp only [Package.decode, readByte_cons, setFlags_eq, readerRead, zeros, reduceCtorEq, if_false, List.replicate,
      List.length_cons, List.length_nil, List.take_succ_cons, List.take_zero, List.drop_succ_cons, List.drop_zero,
      List.drop_nil, List.append_nil]
    congr 1
    simp only [head10, byteAt, Frame.hl, Frame.fdl, Frame.pid, Frame.pt, List.getD_cons_zero, List.getD_cons_succ,
      UInt8.ofNat_toNat, le16]
  all_goals
    refine ⟨fun _ => ?_, fun h => by simp at h⟩
    simp only [Package.decode, readByte, readerRead, zeros, reduceCtorEq, if_false, List.replicate, if_true,
      List.length_cons, List.length_nil, List.take_succ_cons, List.take_zero, List.drop_succ_cons, List.drop_zero,
      List.drop_nil, List.append_nil, List.take_nil]
    exact ⟨_, rfl, rfl⟩

/-- Receiver after the whole header except the checksum. -/
def headAll (p : Package) (b : Bytes) : Package :=
  { head10 p b with
    peerAddress := if Frame.Routed b then UInt16.ofNat (byteAt b 10 + 256 * byteAt b 11) else p.peerAddress
    recipientAddress := if Frame.Routed b then UInt16.ofNat (byteAt b 12 + 256 * byteAt b 13) else p.recipientAddress
    timeToLive := if Frame.Routed b then UInt8.ofNat (byteAt b 14) else p.timeToLive }

theorem byteAt_drop (b : Bytes) (k i : Nat) : byteAt (b.drop k) i = byteAt b (k + i) := by
  simp [byteAt, List.getD_eq_getElem?_getD, List.getElem?_drop]

theorem bitStr_one (n : Nat) : bitStr n = one ↔ n = 1 := by
  unfold bitStr
  by_cases h : n = 1
  · simp [h, one]
  · simp [h, one]

theorem byteAt_short {b : Bytes} {i : Nat} (h : b.length ≤ i) : byteAt b i = 0 := by
  simp [byteAt, List.getD_eq_getElem?_getD, List.getElem?_eq_none h]

theorem decode_header (env key p) (c : Slice) :
    (c.data.length ≤ Frame.hcsPos c.data → ∃ p', Package.decode env key p c = fail p' 131 .eof ∧ p'.servicesFrameData = p.servicesFrameData ∧
      (10 ≤ c.data.length → p'.packetIdentifier = UInt16.ofNat (Frame.pid c.data) ∧
        p'.packetType = UInt8.ofNat (Frame.pt c.data))) ∧
    (Frame.hcsPos c.data < c.data.length →
      Package.decode env key p c = (headAll p c.data).decodeTail env key c (c.data.drop (Frame.hcsPos c.data))) := by
  obtain ⟨hs, hl⟩ := decode_head env key p c
  by_cases h10 : c.data.length < 10
  · refine ⟨fun _ => ?_, fun h => ?_⟩
    · obtain ⟨p', h', h''⟩ := hs h10
      exact ⟨p', h', h'', fun h => by omega⟩
    unfold Frame.hcsPos at h
    split at h <;> omega
  · obtain ⟨tmp, ht, he⟩ := hl (by omega)
    rw [he]
    clear he hs hl
    obtain ⟨b, sp⟩ := c
    simp only at *
    by_cases hr : Frame.Routed b
    · have hroute : (head10 p b).route = one := (bitStr_one _).mpr hr
      unfold Package.decodeRoute
      rw [if_pos hroute]
      simp only [Frame.hcsPos, if_pos hr]
      generalize hd : b.drop 10 = r
      have hb : ∀ i, byteAt b (10 + i) = byteAt r i := by intro i; rw [← hd, byteAt_drop]
      have hlen : b.length = 10 + r.length := by rw [← hd, List.length_drop]; omega
      have h15 : b.drop 15 = r.drop 5 := by rw [← hd, List.drop_drop]
      rw [h15]
      have e0 := hb 0
      have e1 := hb 1
      have e2 := hb 2
      have e3 := hb 3
      have e4 := hb 4
      have ht' : ∃ x y, tmp = [x, y] := by
        match tmp, ht with
        | [x, y], _ => exact ⟨x, y, rfl⟩
      obtain ⟨x, y, rfl⟩ := ht'
      rcases r with _ | ⟨r0, _ | ⟨r1, _ | ⟨r2, _ | ⟨r3, _ | ⟨r4, r⟩⟩⟩⟩⟩
      case cons.cons.cons.cons.cons =>
        simp only [readerRead, reduceCtorEq, if_false, List.length_cons, List.length_nil, List.take_succ_cons, List.take_zero,
          List.drop_succ_cons, List.drop_zero, List.drop_nil, List.append_nil, readByte_cons]
        cases r with
        | nil =>
          refine ⟨fun _ => ⟨_, rfl, rfl, fun _ => ⟨rfl, rfl⟩⟩, fun h => ?_⟩
          simp at hlen; omega
        | cons r5 r =>
          refine ⟨fun h => ?_, fun _ => ?_⟩
          · simp at hlen; omega
          · congr 1
            simp only [headAll, if_pos hr]
            simp only [byteAt, List.getD_cons_zero, List.getD_cons_succ] at e0 e1 e2 e3 e4
            simp only [le16, byteAt, e0, e1, e2, e3, e4, UInt8.ofNat_toNat]
      all_goals
        refine ⟨fun _ => ?_, fun h => by simp at hlen; omega⟩
        simp only [readerRead, reduceCtorEq, if_false, if_true, List.length_cons, List.length_nil, List.take_succ_cons,
          List.take_zero, List.take_nil, List.drop_succ_cons, List.drop_zero, List.drop_nil, List.append_nil, readByte,
          List.cons_append, List.nil_append]
        exact ⟨_, rfl, rfl, fun _ => ⟨rfl, rfl⟩⟩
    · have hroute : ¬ (head10 p b).route = one := fun h => hr ((bitStr_one _).mp h)
      unfold Package.decodeRoute
      rw [if_neg hroute]
      simp only [Frame.hcsPos, if_neg hr]
      refine ⟨fun h => ?_, fun h => ?_⟩
      · rw [List.drop_of_length_le h]
        exact ⟨_, rfl, rfl, fun _ => ⟨rfl, rfl⟩⟩
      · congr 1
        simp only [headAll, if_neg hr]
        rfl

theorem sub_isSome (c : Slice) (lo hi : Nat) :
    c.sub? lo hi = if hi < lo ∨ c.all.length < hi then none else some ((c.all.take hi).drop lo) := by
  unfold Slice.sub? Slice.all
  rw [List.length_append]
  by_cases h : lo ≤ hi ∧ hi ≤ c.data.length + c.spare.length
  · rw [if_pos h, if_neg (by omega)]
  · rw [if_neg h, if_pos (by omega)]

theorem headEnd_eq (b : Bytes) : (UInt8.ofNat (Frame.hl b) - 1).toNat = Frame.headEnd b := by
  have h : Frame.hl b < 256 := UInt8.toNat_lt _
  unfold Frame.headEnd
  generalize Frame.hl b = n at *
  split
  · subst_vars; rfl
  · rw [UInt8.toNat_sub, UInt8.toNat_ofNat']
    simp
    omega

theorem fdl_lt (b : Bytes) : Frame.fdl b < 65536 := by
  have h1 : byteAt b 5 < 256 := UInt8.toNat_lt _
  have h2 : byteAt b 6 < 256 := UInt8.toNat_lt _
  unfold Frame.fdl; omega

theorem hl_lt (b : Bytes) : Frame.hl b < 256 := UInt8.toNat_lt _

theorem bodyEnd_eq (b : Bytes) :
    ((UInt8.ofNat (Frame.hl b)).toUInt16 + UInt16.ofNat (Frame.fdl b)).toNat = Frame.bodyEnd b := by
  have h := hl_lt b
  have h2 := fdl_lt b
  unfold Frame.bodyEnd
  rw [UInt16.toNat_add, UInt8.toNat_toUInt16, UInt8.toNat_ofNat', UInt16.toNat_ofNat', Nat.mod_eq_of_lt h, Nat.mod_eq_of_lt h2]

theorem two_bits (x y : Nat) : bitStr x ++ bitStr y = go!"00" ↔ x ≠ 1 ∧ y ≠ 1 := by
  unfold bitStr
  by_cases hx : x = 1 <;> by_cases hy : y = 1 <;> simp [hx, hy]

theorem enc_iff (b : Bytes) : (bitStr (byteAt b 2 / 2 ^ 4 % 2) ++ bitStr (byteAt b 2 / 2 ^ 3 % 2) ≠ go!"00") ↔ Frame.Encrypted b := by
  rw [ne_eq, two_bits]
  unfold Frame.Encrypted
  omega

theorem ofNat8_eq_iff {n m : Nat} (hn : n < 256) (hm : m < 256) : UInt8.ofNat n = UInt8.ofNat m ↔ n = m := by
  constructor
  · intro h
    have := congrArg UInt8.toNat h
    rwa [ofNat8_toNat _ hn, ofNat8_toNat _ hm] at this
  · rintro rfl; rfl

theorem pt_lt (b : Bytes) : Frame.pt b < 256 := UInt8.toNat_lt _

/-- The receiver when the body is about to be read. -/
def headSum (p : Package) (b : Bytes) : Package :=
  { headAll p b with headerCheckSum := UInt8.ofNat (byteAt b (Frame.hcsPos b)) }

theorem readByte_drop {b : Bytes} {k : Nat} (h : k < b.length) :
    readByte (b.drop k) = .ok (UInt8.ofNat (byteAt b k), b.drop (k + 1)) := by
  rw [List.drop_eq_getElem_cons h, readByte_cons]
  simp [byteAt, List.getD_eq_getElem?_getD, List.getElem?_eq_getElem h]

theorem decode_tail (env key p) (c : Slice) (h : Frame.hcsPos c.data < c.data.length) :
    Package.decode env key p c =
      if c.all.length < Frame.headEnd c.data then .panic
      else if byteAt c.data (Frame.hcsPos c.data) ≠ (crc8 (c.all.take (Frame.headEnd c.data))).toNat then
        fail (headSum p c.data) 137 .checksum
      else (headSum p c.data).decodeBody env key c (Frame.rest c.data) := by
  rw [(decode_header env key p c).2 h]
  unfold Package.decodeTail
  rw [readByte_drop h]
  simp only
  have e : (headAll p c.data).headerLength = UInt8.ofNat (Frame.hl c.data) := rfl
  rw [e, headEnd_eq, sub_isSome]
  by_cases h1 : c.all.length < Frame.headEnd c.data
  · rw [if_pos (.inr h1), if_pos h1]
  · rw [if_neg (by omega), if_neg h1]
    simp only [List.drop_zero]
    have e2 : UInt8.ofNat (byteAt c.data (Frame.hcsPos c.data)) ≠ crc8 (c.all.take (Frame.headEnd c.data)) ↔
        byteAt c.data (Frame.hcsPos c.data) ≠ (crc8 (c.all.take (Frame.headEnd c.data))).toNat := by
      rw [ne_eq, ← UInt8.toNat_inj, ofNat8_toNat _ (show byteAt c.data (Frame.hcsPos c.data) < 256 from UInt8.toNat_lt _)]
    by_cases h2 : byteAt c.data (Frame.hcsPos c.data) ≠ (crc8 (c.all.take (Frame.headEnd c.data))).toNat
    · rw [if_pos h2, if_pos (e2.mpr h2)]; rfl
    · rw [if_neg h2, if_neg (fun h => h2 (e2.mp h))]; rfl

/-- The content that is left in the package when decoding it has failed. -/
def Frame.leftover (env : Env) (key : Option SecretKey) (b : Bytes) : FrameData :=
  match Frame.clear key b with
  | .error _ => if Frame.pt b = 1 then .sds [] else .resp {}
  | .ok x => if Frame.pt b = 1 then .sds (ServiceDataSet.kept env [] x) else .resp (PtResponse.kept env {} x)

/-- The body part, by positions. -/
theorem decode_body (env key p) (c : Slice) :
    let b := c.data
    (headSum p b).decodeBody env key c (Frame.rest b) =
      if Frame.rest b = [] then fail (headSum p b) 132 .eof
      else if Frame.pt b ≠ 0 ∧ Frame.pt b ≠ 1 then fail (headSum p b) 133 .packetType
      else match Frame.content env key b with
        | .error e => fail { headSum p b with servicesFrameData := some (Frame.leftover env key b) } 129 e
        | .ok d =>
          if Frame.after b = [] then fail { headSum p b with servicesFrameData := some d } 129 .eof
          else if Frame.bodyEnd b < Frame.hl b ∨ c.all.length < Frame.bodyEnd b then .panic
          else if Frame.sfrcs b ≠ (crc16 ((c.all.take (Frame.bodyEnd b)).drop (Frame.hl b))).toNat then
            fail (Frame.package p b d) 137 .checksum
          else .ret (Frame.package p b d) 0 none := by
  intro b
  have hfdl : (headSum p b).frameDataLength = UInt16.ofNat (Frame.fdl b) := rfl
  have hfdl' : (headSum p b).frameDataLength.toNat = Frame.fdl b := by
    rw [hfdl, UInt16.toNat_ofNat']; exact Nat.mod_eq_of_lt (fdl_lt b)
  have hpt : (headSum p b).packetType = UInt8.ofNat (Frame.pt b) := rfl
  have hpt1 : (headSum p b).packetType = 1 ↔ Frame.pt b = 1 := by
    rw [hpt]; exact ofNat8_eq_iff (pt_lt b) (by decide)
  have hpt0 : (headSum p b).packetType = 0 ↔ Frame.pt b = 0 := by
    rw [hpt]; exact ofNat8_eq_iff (pt_lt b) (by decide)
  have hea : (headSum p b).encryptionAlg ≠ go!"00" ↔ Frame.Encrypted b := enc_iff b
  have hhl : (headSum p b).headerLength = UInt8.ofNat (Frame.hl b) := rfl
  unfold Package.decodeBody
  rw [hfdl']
  by_cases hr : Frame.rest b = []
  · rw [if_pos hr, hr]; rfl
  rw [if_neg hr]
  have e1 : readerRead (zeros (Frame.fdl b)) (Frame.rest b) = .ok (Frame.body b, Frame.after b) := by
    unfold readerRead
    rw [if_neg hr, drop_zeros]
    simp only [zeros, List.length_replicate, Frame.body, Frame.after]
  rw [e1]
  simp only
  by_cases ht : Frame.pt b ≠ 0 ∧ Frame.pt b ≠ 1
  · rw [if_pos ht, if_pos ⟨fun h => ht.2 (hpt1.mp h), fun h => ht.1 (hpt0.mp h)⟩]; rfl
  rw [if_neg ht, if_neg (fun h => ht ⟨fun x => h.2 (hpt0.mpr x), fun x => h.1 (hpt1.mpr x)⟩)]
  have hsd : (if (headSum p b).packetType = 1 then FrameData.sds [] else .resp {}) =
      (if Frame.pt b = 1 then FrameData.sds [] else .resp {}) := by
    by_cases h : Frame.pt b = 1
    · rw [if_pos h, if_pos (hpt1.mpr h)]
    · rw [if_neg h, if_neg (fun x => h (hpt1.mp x))]
  rw [hsd]
  have hclear : (headSum p b).decrypt key (Frame.body b) = Frame.clear key b := by
    unfold Package.decrypt Frame.clear
    by_cases h : Frame.Encrypted b
    · rw [if_pos h, if_pos (hea.mpr h)]; cases key <;> rfl
    · rw [if_neg h, if_neg (fun x => h (hea.mp x))]
  have hclear' : ∀ d, ({ headSum p b with servicesFrameData := d } : Package).decrypt key (Frame.body b) = Frame.clear key b :=
    fun d => hclear
  rw [hclear']
  unfold Frame.content Frame.leftover
  cases hc : Frame.clear key b with
  | error e => rfl
  | ok x =>
    simp only [ok_bind]
    have hbody : (if (headSum p b).packetType = 1 then (ServiceDataSet.decode env [] x).map FrameData.sds
        else (PtResponse.decode env {} x).map FrameData.resp) =
        (if Frame.pt b = 1 then do let s ← ServiceDataSet.decode env [] x; pure (FrameData.sds s)
          else do let r ← PtResponse.decode env {} x; pure (FrameData.resp r)) := by
      by_cases h : Frame.pt b = 1
      · rw [if_pos h, if_pos (hpt1.mpr h)]
        cases ServiceDataSet.decode env [] x <;> rfl
      · rw [if_neg h, if_neg (fun x => h (hpt1.mp x))]
        cases PtResponse.decode env {} x <;> rfl
    have hkept : (if (headSum p b).packetType = 1 then FrameData.sds (ServiceDataSet.kept env [] x) else .resp (PtResponse.kept env {} x)) =
        (if Frame.pt b = 1 then FrameData.sds (ServiceDataSet.kept env [] x) else .resp (PtResponse.kept env {} x)) := by
      by_cases h : Frame.pt b = 1
      · rw [if_pos h, if_pos (hpt1.mpr h)]
      · rw [if_neg h, if_neg (fun x => h (hpt1.mp x))]
    rw [hbody, hkept]
    cases (if Frame.pt b = 1 then do let s ← ServiceDataSet.decode env [] x; pure (FrameData.sds s)
          else do let r ← PtResponse.decode env {} x; pure (FrameData.resp r) : Except Err FrameData) with
    | error e => rfl
    | ok d =>
      simp only
      by_cases ha : Frame.after b = []
      · rw [if_pos ha, ha]; rfl
      rw [if_neg ha]
      have e2 : ∃ r', readerRead (zeros 2) (Frame.after b) =
          .ok ([UInt8.ofNat (byteAt (Frame.after b) 0), UInt8.ofNat (byteAt (Frame.after b) 1)], r') := by
        generalize Frame.after b = a at *
        rcases a with _ | ⟨a0, _ | ⟨a1, a⟩⟩
        · exact absurd rfl ha
        · exact ⟨[], by simp [readerRead, zeros, byteAt]⟩
        · exact ⟨a, by simp [readerRead, zeros, byteAt]⟩
      obtain ⟨r', e2⟩ := e2
      rw [e2]
      simp only
      have e3 : le16 [UInt8.ofNat (byteAt (Frame.after b) 0), UInt8.ofNat (byteAt (Frame.after b) 1)] =
          UInt16.ofNat (Frame.sfrcs b) := by
        simp only [le16, ofNat8_toNat _ (show byteAt (Frame.after b) 0 < 256 from UInt8.toNat_lt _),
          ofNat8_toNat _ (show byteAt (Frame.after b) 1 < 256 from UInt8.toNat_lt _)]
        rfl
      rw [e3, hfdl, hhl, bodyEnd_eq, sub_isSome, ofNat8_toNat _ (hl_lt b)]
      by_cases hb : Frame.bodyEnd b < Frame.hl b ∨ c.all.length < Frame.bodyEnd b
      · rw [if_pos hb, if_pos hb]
      rw [if_neg hb, if_neg hb]
      simp only
      have e4 : UInt16.ofNat (Frame.sfrcs b) ≠ crc16 ((c.all.take (Frame.bodyEnd b)).drop (Frame.hl b)) ↔
          Frame.sfrcs b ≠ (crc16 ((c.all.take (Frame.bodyEnd b)).drop (Frame.hl b))).toNat := by
        have : Frame.sfrcs b < 65536 := by
          have h1 : byteAt (Frame.after b) 0 < 256 := UInt8.toNat_lt _
          have h2 : byteAt (Frame.after b) 1 < 256 := UInt8.toNat_lt _
          unfold Frame.sfrcs; omega
        rw [ne_eq, ← UInt16.toNat_inj, UInt16.toNat_ofNat', Nat.mod_eq_of_lt this]
      by_cases h2 : Frame.sfrcs b ≠ (crc16 ((c.all.take (Frame.bodyEnd b)).drop (Frame.hl b))).toNat
      · rw [if_pos h2, if_pos (e4.mpr h2)]; rfl
      · rw [if_neg h2, if_neg (fun h => h2 (e4.mp h))]; rfl

/-- Everything about `Package.decode` by positions. -/
theorem decode_frame (env key p) (c : Slice) :
    (Package.decode env key p c).outcome = Frame.outcome env key c ∧
    (∀ q code err, Package.decode env key p c = .ret q code err →
      (err = none ↔ code = 0) ∧
      (10 ≤ c.data.length → q.packetIdentifier = UInt16.ofNat (Frame.pid c.data) ∧ q.packetType = UInt8.ofNat (Frame.pt c.data)) ∧
      (code = 0 → ∃ d, Frame.content env key c.data = .ok d ∧ q = Frame.package p c.data d)) := by
  by_cases hs : c.data.length ≤ Frame.hcsPos c.data
  · obtain ⟨p', h, _, h'⟩ := (decode_header env key p c).1 hs
    rw [h]
    refine ⟨?_, ?_⟩
    · simp only [Frame.outcome, if_pos hs]; rfl
    · rintro q code err h2
      cases h2
      exact ⟨by decide, h', fun h => absurd h (by decide)⟩
  have hb := decode_body env key p c
  rw [decode_tail env key p c (by omega)]
  simp only [Frame.outcome, if_neg hs]
  by_cases h1 : c.all.length < Frame.headEnd c.data
  · simp only [if_pos h1]
    exact ⟨rfl, fun _ _ _ h => by cases h⟩
  simp only [if_neg h1]
  by_cases h2 : byteAt c.data (Frame.hcsPos c.data) ≠ (crc8 (c.all.take (Frame.headEnd c.data))).toNat
  · simp only [if_pos h2]
    exact ⟨rfl, fun _ _ _ h => by cases h; exact ⟨by decide, fun _ => ⟨rfl, rfl⟩, fun h => absurd h (by decide)⟩⟩
  simp only [if_neg h2]
  rw [hb]
  by_cases h3 : Frame.rest c.data = []
  · simp only [if_pos h3]
    exact ⟨rfl, fun _ _ _ h => by cases h; exact ⟨by decide, fun _ => ⟨rfl, rfl⟩, fun h => absurd h (by decide)⟩⟩
  simp only [if_neg h3]
  by_cases h4 : Frame.pt c.data ≠ 0 ∧ Frame.pt c.data ≠ 1
  · simp only [if_pos h4]
    exact ⟨rfl, fun _ _ _ h => by cases h; exact ⟨by decide, fun _ => ⟨rfl, rfl⟩, fun h => absurd h (by decide)⟩⟩
  simp only [if_neg h4]
  cases hd : Frame.content env key c.data with
  | error e =>
    simp only [Except.isOk, Except.toBool, if_true]
    exact ⟨rfl, fun _ _ _ h => by cases h; exact ⟨⟨fun h => (by cases h), fun h => absurd h (by decide)⟩, fun _ => ⟨rfl, rfl⟩, fun h => absurd h (by decide)⟩⟩
  | ok d =>
    simp only [Except.isOk, Except.toBool, Bool.true_eq_false, if_false]
    by_cases h5 : Frame.after c.data = []
    · simp only [if_pos h5]
      exact ⟨rfl, fun _ _ _ h => by cases h; exact ⟨by decide, fun _ => ⟨rfl, rfl⟩, fun h => absurd h (by decide)⟩⟩
    simp only [if_neg h5]
    by_cases h6 : Frame.bodyEnd c.data < Frame.hl c.data ∨ c.all.length < Frame.bodyEnd c.data
    · simp only [if_pos h6]
      exact ⟨rfl, fun _ _ _ h => by cases h⟩
    simp only [if_neg h6]
    by_cases h7 : Frame.sfrcs c.data ≠ (crc16 ((c.all.take (Frame.bodyEnd c.data)).drop (Frame.hl c.data))).toNat
    · simp only [if_pos h7]
      exact ⟨rfl, fun _ _ _ h => by cases h; exact ⟨by decide, fun _ => ⟨rfl, rfl⟩, fun h => absurd h (by decide)⟩⟩
    simp only [if_neg h7]
    exact ⟨rfl, fun _ _ _ h => by cases h; exact ⟨by decide, fun _ => ⟨rfl, rfl⟩, fun _ => ⟨d, rfl, rfl⟩⟩⟩

end Egts
