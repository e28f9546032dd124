import Verif.Proofs.Reencode
import Verif.Proofs.ServerExamples
import Verif.Props.Packages
import Verif.Props.Subrecords
import Verif.Props.Layout
import Verif.Proofs.KeptRec

/-! # Decoding and encoding again (C22) -/

namespace Egts

/-- Every frame the library itself produces, with or without encryption, is reproduced byte for byte when it is decoded (into
any receiver) and encoded again. Missing: frames with positions whose coordinates drift (`C22_false_position`), with a second
counter or asymmetric analog sensors (C28, C29), and frames made by others: with subrecords of unknown type (`C22_false`), in which case the result is a different frame. -/
theorem C22_own_frames_partial (env : Env) (key : Option SecretKey) (hk : ∀ k, key = some k → ∀ x y, k.encode x = .ok y → k.decode y = .ok x)
    (p p0 : Package) (sp : Bytes) (h : p.WF env key) (hs : p.Steady env)
    (hfit : ∀ body, p.Body env key body → p.fullHL + body.length < 2 ^ 16) :
    ∃ out q, (p.encode env key).2 = .ok out ∧ Package.decode env key p0 ⟨out, sp⟩ = .ret q 0 none ∧ (q.encode env key).2 = .ok out := by
  obtain ⟨out, q, e1, e2, e3, _⟩ := package_rt env key p0 sp h hfit (fun _ k' hk' => hk k' hk')
  exact ⟨out, q, e1, e2, by rw [package_reencode env key p0 p q h hs e3, e1]⟩

/-- It holds for a package with routing and several kinds of subrecords. -/
example (env : Env) : appPackage.WF env none ∧ appPackage.Steady env ∧ (∀ k, (none : Option SecretKey) = some k → ∀ x y, k.encode x = .ok y → k.decode y = .ok x) := by
  refine ⟨(appPackage_wf env none).1, ?_, fun k h => by cases h⟩
  intro r hr rd hrd d hd
  simp only [Package.records, appPackage, List.mem_cons, List.not_mem_nil, or_false] at hr
  rcases hr with rfl | rfl
  · simp only [sdrExample, rdsExample, List.mem_cons, List.not_mem_nil, or_false] at hrd
    rcases hrd with rfl | rfl | rfl <;> (injection hd with hd; subst hd; trivial)
  · cases hrd

/-- A frame whose only record has one subrecord, of unknown type 99. -/
def unknownFrame : Bytes := [1, 0, 0, 11, 0, 12, 0, 7, 0, 1, 231, 5, 0, 1, 0, 0, 2, 2, 99, 2, 0, 1, 2, 171, 7]

def unknownRec : ServiceDataRecord :=
  { recordLength := 5, recordNumber := 1, ssod := go!"0", rsod := go!"0", grp := go!"0", rpp := go!"00", tmfe := go!"0", evfe := go!"0",
    obfe := go!"0", sourceServiceType := 2, recipientServiceType := 2 }

def unknownPackage : Package := { Ex.pkg 12 231 1963 [unknownRec] with packetIdentifier := 7 }

set_option maxRecDepth 20000 in
/-- Full statement of C22 (not provable): it fails for a frame with a subrecord the library does not know. The subrecord is
lost, and the record still declares its five bytes. -/
theorem C22_false (env : Env) : ∃ (f out : Bytes) (q : Package), (∀ sp, Package.decode env none {} ⟨f, sp⟩ = .ret q 0 none) ∧
    (q.encode env none).2 = .ok out ∧ out ≠ f :=
  ⟨unknownFrame, [1, 0, 0, 11, 0, 7, 0, 7, 0, 1, 157, 5, 0, 1, 0, 0, 2, 2, 24, 100], unknownPackage,
    fun _ => accept_spare env none {} (by with_unfolding_all rfl), by with_unfolding_all rfl, by decide⟩

/-- A position at latitude `lat` and longitude 0. -/
def posAt (lat : F64) : SrPosData := { Ex.zeroPos 0 with latitude := lat }

def recAt (lat : F64) : ServiceDataRecord :=
  Ex.recO 24 1 [{ subrecordType := 16, subrecordLength := 21, subrecordData := some (.pos (posAt lat)) }]

def pkgAt (lat : F64) : Package := Ex.pkg 35 246 51219 [recAt lat]

theorem posAt_encode (env : Env) (lat : F64) :
    SrPosData.encode env (posAt lat) = .ok ([0, 0, 0, 0] ++ put32 (encLat env lat) ++ [0, 0, 0, 0, 0, 0, 0, 0, 0, 0, 0, 0, 0]) := by
  have h : encNavTime env (posAt lat).navigationTime = 0 := encNavTime_rt env 0 (by decide)
  have hl : encLon env (posAt lat).longitude = 0 := by
    show encLon env 0 = 0
    exact toU32_eq env _ 0 (by decide +kernel) (by decide +kernel) (by norm_num)
  have hf : parseFlags ((posAt lat).alte ++ (posAt lat).lohs ++ (posAt lat).lahs ++ (posAt lat).mv ++ (posAt lat).bb ++ (posAt lat).cs ++
      (posAt lat).fix ++ (posAt lat).vld) = .ok 0 := by
    show parseFlags (go!"00000000") = _
    decide +kernel
  have hs : put16 (posSpeedWord (posAt lat).speed (posAt lat).directionHighestBit (posAt lat).altitudeSign) = [0, 0] := by
    show put16 (posSpeedWord 0 0 0) = _
    decide +kernel
  have hd : posDirByte (posAt lat).direction (posAt lat).directionHighestBit = 0 := by
    show posDirByte 0 0 = 0
    decide +kernel
  have ho : put24 (posAt lat).odometer = [0, 0, 0] := by
    show put24 0 = _
    decide +kernel
  have ha : optBytes (posAt lat).alte (put24 (posAt lat).altitude) = [] := by
    show optBytes (go!"0") (put24 0) = _
    decide +kernel
  unfold SrPosData.encode
  rw [h, hl, hf, hs, hd, ho, ha, show put32 0 = [0, 0, 0, 0] by decide, show (posAt lat).latitude = lat from rfl]
  generalize encLat env lat = v
  show Except.ok _ = Except.ok _
  simp only [List.append_assoc]
  rfl

theorem recAt_encode (env : Env) (lat : F64) (v : UInt32) (h : encLat env lat = v) : ServiceDataSet.encode env [recAt lat] =
    .ok ([24, 0, 1, 0, 1, 5, 0, 0, 0, 2, 2, 16, 21, 0, 0, 0, 0, 0] ++ put32 v ++ [0, 0, 0, 0, 0, 0, 0, 0, 0, 0, 0, 0, 0]) := by
  subst h
  unfold recAt Ex.recO
  simp only [ServiceDataSet.encode, ServiceDataRecord.encode, RecordDataSet.encode, RecordData.encode, SubData.length, SubData.encode, posAt_encode]
  generalize encLat env lat = v
  with_unfolding_all rfl

def bodyAt (v : UInt32) : Bytes := [24, 0, 1, 0, 1, 5, 0, 0, 0, 2, 2, 16, 21, 0, 0, 0, 0, 0] ++ put32 v ++ [0, 0, 0, 0, 0, 0, 0, 0, 0, 0, 0, 0, 0]

/-- The frame for the package at a latitude whose wire number is `v`. -/
theorem pkgAt_encode (env : Env) (lat : F64) (v : UInt32) (h : encLat env lat = v) :
    ((pkgAt lat).encode env none).2 = .ok ([1, 0, 0, 11, 0, 35, 0, 5, 0, 1, 246] ++ bodyAt v ++ put16 (crc16 (bodyAt v))) := by
  have hb : (pkgAt lat).bodyBytes env none = .ok (bodyAt v) := by
    show (do
      let sfrd ← ServiceDataSet.encode env [recAt lat]
      pure sfrd) = _
    rw [recAt_encode env lat v h]
    rfl
  have hp : parseFlags ((pkgAt lat).prefix_ ++ (pkgAt lat).route ++ (pkgAt lat).encryptionAlg ++ (pkgAt lat).compression ++ (pkgAt lat).priority) = .ok 0 := by
    show parseFlags (go!"00000000") = _
    decide +kernel
  have hc : crc8 [1, 0, 0, 11, 0, 35, 0, 5, 0, 1] = 246 := by decide +kernel
  unfold Package.encode
  rw [show (pkgAt lat).fillHL = pkgAt lat from rfl, hp]
  simp only [hb]
  have hlen : (bodyAt v).length = 35 := rfl
  rw [hlen, if_pos (by decide)]
  have hh : ({ pkgAt lat with frameDataLength := UInt16.ofNat 35 } : Package).headBytes 0 = [1, 0, 0, 11, 0, 35, 0, 5, 0, 1] := by
    with_unfolding_all rfl
  rw [hh, hc]
  rfl

/-- A latitude, about 14 seconds of arc north of the equator. -/
def driftLat : F64 := 4503647678365707 / 1152921504606846976

theorem driftLat_enc (env : Env) : encLat env driftLat = 186415 :=
  toU32_eq env _ 186415 (by decide +kernel) (by decide +kernel) (by norm_num)

set_option maxRecDepth 20000 in
theorem driftFrame_decode (env : Env) :
    Package.decode env none {} ⟨[1, 0, 0, 11, 0, 35, 0, 5, 0, 1, 246] ++ bodyAt 186415 ++ put16 (crc16 (bodyAt 186415)), []⟩ = .ret (pkgAt (decLat 186415)) 0 none := by
  with_unfolding_all rfl

/-- A second way, even for a frame the library itself made from a package in range: the coordinates drift by one unit of the
wire format. -/
theorem C22_false_position (env : Env) : ∃ (p : Package) (out out' : Bytes) (q : Package), p.WF env none ∧ (p.encode env none).2 = .ok out ∧
    (∀ sp, Package.decode env none {} ⟨out, sp⟩ = .ret q 0 none) ∧ (q.encode env none).2 = .ok out' ∧ out' ≠ out := by
  refine ⟨{ pkgAt driftLat with headerLength := 11 }, _, _, pkgAt (decLat 186415), ?_, pkgAt_encode env driftLat _ (driftLat_enc env),
    fun sp => accept_spare env none {} (driftFrame_decode env), pkgAt_encode env (decLat 186415) 186414 (C33_drift_occurs env).1, by decide +kernel⟩
  have b0 : IsBit (go!"0") := by decide
  have b1 : IsBit (go!"1") := by decide
  have b00 : IsBits2 (go!"00") := by decide
  have hrd : (⟨16, 21, some (.pos (posAt driftLat))⟩ : RecordData).WF env := by
    refine ⟨_, _, rfl, ⟨⟨b0, b0, b0, b0, b0, b0, b0, b0, ⟨0, by decide, rfl⟩, (by decide : (0 : UInt8) < 2), (by decide : (0 : UInt8) < 2),
      (by decide : (0 : UInt16) ≤ 1638), (by decide : (0 : UInt32).toNat < 2 ^ 24),
      fun h => absurd (show go!"0" = go!"1" from h) (by decide)⟩, ?_, ?_⟩, .inl rfl, posAt_encode env driftLat, by simp [put32], .inr rfl⟩
    · show (0 : Rat) ≤ driftLat ∧ driftLat ≤ (90 : Rat)
      decide +kernel
    · show (0 : Rat) ≤ 0 ∧ 0 ≤ (180 : Rat)
      decide +kernel
  refine ⟨⟨b00, b0, b00, b0, b00, .inr rfl⟩, .sds [recAt driftLat], _, rfl, rfl, ⟨by simp, ?_⟩, ⟨_, recAt_encode env driftLat _ (driftLat_enc env), .inl ⟨rfl, rfl⟩⟩,
    by decide, by decide⟩
  intro r hr
  simp only [List.mem_singleton] at hr
  subst hr
  refine ⟨b0, b0, b0, b00, b0, b0, b1, fun h => absurd (show go!"0" = go!"1" from h) (by decide), ?_, 
    [16, 21, 0, 0, 0, 0, 0] ++ put32 186415 ++ [0, 0, 0, 0, 0, 0, 0, 0, 0, 0, 0, 0, 0], ?_, by decide, .inr rfl⟩
  · intro rd hrd'
    simp only [recAt, Ex.recO, List.mem_singleton] at hrd'
    subst hrd'
    exact hrd
  · rw [← driftLat_enc env]
    unfold recAt Ex.recO
    simp only [RecordDataSet.encode, RecordData.encode, SubData.length, SubData.encode, posAt_encode]
    generalize encLat env driftLat = v
    with_unfolding_all rfl

/-! ## Which bytes come back exactly -/

open Layout

/-- Subrecords of which nothing is cut, of any known and unknown types: what was decoded can be encoded, never to more bytes than
there were, and to the same bytes if and only if each of them is of a known type and is kept (`Layout.Kept`). -/
theorem C22_subrecords_exact (env : Env) (b : Bytes) (rds : List RecordData) (hc : EachSub Complete b)
    (h : RecordDataSet.decode env [] b = .ok rds) :
    ∃ w, RecordDataSet.encode env rds = .ok w ∧ w.length ≤ b.length ∧ (w = b ↔ EachSub (Kept env) b) := by
  obtain ⟨r, hr, rfl⟩ := (rds_iff env [] rds b).mp h
  exact again_subs env hc hr

/-- The same for service data records. -/
theorem C22_records_exact (env : Env) (b : Bytes) (rs : List ServiceDataRecord) (hc : EachRecord (EachSub Complete) b)
    (h : ServiceDataSet.decode env [] b = .ok rs) :
    ∃ w, ServiceDataSet.encode env rs = .ok w ∧ w.length ≤ b.length ∧ (w = b ↔ EachRecord (EachSub (Kept env)) b) := by
  obtain ⟨r, hr, rfl⟩ := (sds_iff env [] rs b).mp h
  exact again_records env hc hr

/-- The same for frames, whoever made them: an accepted frame in the clear whose header length is right and of whose records
nothing is cut is reproduced byte for byte if and only if nothing follows its body checksum, its body is not empty, and each subrecord is
kept. Otherwise `Encode` gives another frame; it never fails. Missing: frames that are cut inside a field (there, coincidences are possible, see the example below).
Encrypted frames: `C22_encrypted_exact_partial`. -/
theorem C22_frames_exact_partial (env : Env) (key : Option SecretKey) (p q : Package) (b sp : Bytes)
    (h : Package.decode env none p ⟨b, sp⟩ = .ret q 0 none) (hplain : ¬ Frame.Encrypted b) (hh : Frame.Honest b)
    (hc : EachRecord (EachSub Complete) (recordBytes b)) :
    ∃ out, (q.encode env key).2 = .ok out ∧
      (out = b ↔ b.length = Frame.total b ∧ Frame.fdl b ≠ 0 ∧ EachRecord (EachSub (Kept env)) (recordBytes b)) := by
  obtain ⟨hf, d, hd, rfl⟩ := (C81_package env none p q ⟨b, sp⟩).mp h
  obtain ⟨w, hw, hl, hi⟩ := content_again env hd hplain hc
  obtain ⟨out, e, hout⟩ := frame_again (p := p) env key hf hh (body_plain env key hplain hw) hl
  exact ⟨out, e, by rw [hout, hi]⟩

/-- The same for encrypted frames, with a key that decrypts what it has encrypted; `x` is the decrypted body. -/
theorem C22_encrypted_exact_partial (env : Env) (k : SecretKey) (hk : k.Cipher) (p q : Package) (b sp x : Bytes)
    (h : Package.decode env (some k) p ⟨b, sp⟩ = .ret q 0 none) (he : Frame.Encrypted b) (hx : k.decode (Frame.body b) = .ok x) (hh : Frame.Honest b)
    (hc : EachRecord (EachSub Complete) (recordsOf b x)) :
    (q.encode env (some k)).2 = .ok b ↔ b.length = Frame.total b ∧ Frame.fdl b ≠ 0 ∧ EachRecord (EachSub (Kept env)) (recordsOf b x) := by
  obtain ⟨hf, d, hd, rfl⟩ := (C81_package env (some k) p q ⟨b, sp⟩).mp h
  obtain ⟨w, hw, hl, hi⟩ := clear_again env hd (by rw [Frame.clear, if_pos he]; exact hx) hc
  have hb := body_encrypted (p := p) env k he hw
  have hxe := (hk.inverse x (Frame.body b)).mpr hx
  rw [← hi]
  cases hy : k.encode w with
  | error e =>
    rw [hy] at hb
    constructor
    · intro hq
      exfalso
      revert hq
      unfold Package.encode
      split
      · simp
      · have hfill : ∀ p : Package, p.fillHL.bodyBytes env (some k) = p.bodyBytes env (some k) := by
          intro p; by_cases h : p.headerLength = 0 <;> simp [Package.fillHL, h, Package.bodyBytes]
        simp only [hfill, hb]
        simp [liftErr]
    · rintro ⟨_, _, rfl⟩
      rw [hxe] at hy
      cases hy
  | ok c =>
    rw [hy] at hb
    obtain ⟨out, e, hout⟩ := frame_again (p := p) env (some k) hf hh hb (hk.longer _ _ _ _ hy hxe hl)
    rw [e]
    have : (Except.ok out : Except Fault Bytes) = .ok b ↔ out = b := by simp
    rw [this, hout]
    have hcx : c = Frame.body b ↔ w = x := by
      constructor
      · rintro rfl
        have := (hk.inverse w _).mp hy
        rw [hx] at this
        cases this
        rfl
      · rintro rfl
        rw [hxe] at hy
        cases hy
        rfl
    rw [hcx]

set_option maxRecDepth 20000 in
/-- The frame with the unknown subrecord is complete, but not kept. -/
example (env : Env) : (∃ q, Package.decode env none {} ⟨unknownFrame, []⟩ = .ret q 0 none) ∧ Frame.Honest unknownFrame ∧ ¬ Frame.Encrypted unknownFrame ∧
    EachRecord (EachSub Complete) (recordBytes unknownFrame) ∧ ¬ EachRecord (EachSub (Kept env)) (recordBytes unknownFrame) := by
  have e : recordBytes unknownFrame = [5, 0, 1, 0, 0, 2, 2, 99, 2, 0, 1, 2] := by decide +kernel
  refine ⟨⟨unknownPackage, by with_unfolding_all rfl⟩, by decide +kernel, by decide +kernel, ?_, ?_⟩
  · rw [e]
    exact .cons _ (by decide +kernel) (.cons _ (by decide +kernel) trivial .nil) .nil
  · rw [e]
    intro h
    cases h with
    | cons _ _ h _ =>
      cases h with
      | cons _ _ h _ => exact h

/-- A record with the state of a device, a level sensor, an analog value and a login with a password. -/
def keptBody : Bytes := [32, 0, 7, 0, 0, 2, 2, 21, 5, 0, 1, 120, 0, 40, 5, 27, 7, 0, 0b01010011, 1, 0, 9, 9, 0, 0, 25, 4, 0, 1, 7, 7, 7, 7, 4, 0, 97, 0, 98, 0]

def keptFrame : Bytes := [1, 0, 0, 11, 0, 39, 0, 9, 0, 1, 146] ++ keptBody ++ put16 (crc16 keptBody)

set_option maxRecDepth 20000 in
/-- It comes back byte for byte. -/
example (env : Env) : (∃ q, Package.decode env none {} ⟨keptFrame, []⟩ = .ret q 0 none) ∧ Frame.Honest keptFrame ∧ ¬ Frame.Encrypted keptFrame ∧
    EachRecord (EachSub Complete) (recordBytes keptFrame) ∧ EachRecord (EachSub (Kept env)) (recordBytes keptFrame) ∧
    keptFrame.length = Frame.total keptFrame ∧ Frame.fdl keptFrame ≠ 0 := by
  have e : recordBytes keptFrame = keptBody := by decide +kernel
  refine ⟨⟨_, by with_unfolding_all rfl⟩, by decide +kernel, by decide +kernel, ?_, ?_, by decide +kernel, by decide +kernel⟩
  · rw [e]
    exact .cons _ (by decide +kernel) (.cons _ (by decide +kernel) (by show 5 ≤ _; decide +kernel) (.cons _ (by decide +kernel) (by show 7 ≤ _; decide +kernel)
      (.cons _ (by decide +kernel) (by show 4 ≤ _; decide +kernel) (.cons _ (by decide +kernel) trivial .nil)))) .nil
  · rw [e]
    exact .cons _ (by decide +kernel) (.cons _ (by decide +kernel) (by show _ = 5 ∧ _ < 8; decide +kernel) (.cons _ (by decide +kernel) (by show _ = 7 ∧ _ < 128; decide +kernel)
      (.cons _ (by decide +kernel) (by show _ = 4; decide +kernel) (.cons _ (by decide +kernel) (.inl (by decide +kernel)) .nil)))) .nil

/-- A key that flips bits. -/
def flipKey : SecretKey := ⟨fun x => .ok (x.map (· ^^^ 90)), fun x => .ok (x.map (· ^^^ 90))⟩

theorem flipKey_cipher : flipKey.Cipher where
  inverse x y := by
    have flip : ∀ x : Bytes, (x.map (· ^^^ 90)).map (· ^^^ 90) = x := by
      intro x
      rw [List.map_map]
      conv_rhs => rw [← List.map_id x]
      refine List.map_congr_left fun c _ => ?_
      simp [UInt8.xor_assoc]
    show Except.ok _ = Except.ok _ ↔ Except.ok _ = Except.ok _
    simp only [Except.ok.injEq]
    constructor
    · rintro rfl; exact flip x
    · rintro rfl; exact flip y
  longer x y x' y' h h' hl := by
    cases h
    cases h'
    simpa using hl

def flippedFrame : Bytes := [1, 0, 8, 11, 0, 39, 0, 9, 0, 1, 184] ++ keptBody.map (· ^^^ 90) ++ put16 (crc16 (keptBody.map (· ^^^ 90)))

set_option maxRecDepth 20000 in
/-- The same frame, encrypted. -/
example (env : Env) : (∃ q, Package.decode env (some flipKey) {} ⟨flippedFrame, []⟩ = .ret q 0 none) ∧ Frame.Honest flippedFrame ∧ Frame.Encrypted flippedFrame ∧
    flipKey.decode (Frame.body flippedFrame) = .ok keptBody ∧ recordsOf flippedFrame keptBody = recordBytes keptFrame ∧
    flippedFrame.length = Frame.total flippedFrame ∧ Frame.fdl flippedFrame ≠ 0 :=
  ⟨⟨_, by with_unfolding_all rfl⟩, by decide +kernel, by decide +kernel, by with_unfolding_all rfl, by decide +kernel, by decide +kernel, by decide +kernel⟩

/-- Why nothing may be cut: counters 3 and 4, the last byte missing, then a counter that declares more than there is. Each comes back
otherwise, one byte longer and one byte shorter, together they come back as they were. -/
def cutSubs : Bytes := [19, 6, 0, 0b1100, 1, 2, 25, 3, 4, 25, 25, 25, 25, 25, 25, 25, 25]

example : (RecordDataSet.decode ⟨fun _ => 0⟩ [] cutSubs).toOption.map (RecordDataSet.encode ⟨fun _ => 0⟩) = some (.ok cutSubs) := by
  decide +kernel

end Egts
