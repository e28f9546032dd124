import Verif.Props.Stream

/-!
# What the receiver does with a packet (C44–C51)

`handlePacket env now client pkt` is the list of effects of handling one received packet at time `now` with
`client` the last identifier received, and the last identifier afterwards. `Accepts env pkt p recs`: the
library decodes `pkt` without error as an application packet with records `recs`.
-/

namespace Egts

/-! ## C44 -/

/-- An accepted application packet without record responses: after the saves one response is written
which the library decodes to the confirmation of each record (`acceptance`); if there was a terminal
identity or auth info, an authorization result follows (C51). -/
theorem C44_acknowledged (env : Env) (now : Int) (client : UInt32) (pkt : Slice) (p : Package) (recs : List ServiceDataRecord)
    (h : Accepts env pkt p recs) (hr : ∀ r ∈ recs, r.hasResp = false) :
    ∃ ack, IsResponse env ack p.packetIdentifier (acceptance p.packetIdentifier recs) ∧
      (handlePacket env now client pkt).effs = (stored p.packetIdentifier now client recs).map .save ++ .write ack ::
        (if recs.any (fun r => r.recordDataSet.any (·.isLogin)) then [.write (resultPacket p.packetIdentifier)] else []) := by
  obtain ⟨ack, ⟨h1, _⟩, h2⟩ := handlePacket_app env now client h hr
  refine ⟨ack, h1, ?_⟩
  rw [h2]
  simp

example (env : Env) (sp : Bytes) : Accepts env ⟨Ex.good, sp⟩ (Ex.pkg 91 141 48568 Ex.goodRecs) Ex.goodRecs ∧
    (∀ r ∈ Ex.goodRecs, r.hasResp = false) ∧ Ex.goodRecs.any (fun r => r.recordDataSet.any (·.isLogin)) = true :=
  ⟨Ex.good_accepts env sp, by decide, by decide⟩

/-- The acknowledgement for that packet, in full. -/
example : acceptance 5 Ex.goodRecs =
    { responsePacketID := 5
      processingResult := 0
      sdr := some [ackRecord 12 1
        [{ subrecordType := 0, subrecordLength := 3, subrecordData := some (.resp { confirmedRecordNumber := 7, recordStatus := 0 }) },
         { subrecordType := 0, subrecordLength := 3, subrecordData := some (.resp { confirmedRecordNumber := 8, recordStatus := 0 }) }]] } := rfl

/-! ## C45 -/

/-- A rejected packet: one response with the packet's identifier and the code of `Decode` is written,
nothing is saved, and the connection goes on with the same client. -/
theorem C45_rejected (env : Env) (now : Int) (client : UInt32) (pkt : Slice) (code : UInt8) (hl : 10 ≤ pkt.data.length)
    (h : Frame.outcome env none pkt = .code code) (hc : code ≠ 0) :
    ∃ resp, handlePacket env now client pkt = { effs := [.write resp], client := some client } ∧
      IsResponse env resp (UInt16.ofNat (Frame.pid pkt.data))
        { responsePacketID := UInt16.ofNat (Frame.pid pkt.data), processingResult := code, sdr := none } := by
  obtain ⟨h1, h2⟩ := decode_frame env none {} pkt
  cases hd : Package.decode env none {} pkt with
  | panic => rw [hd, h] at h1; cases h1
  | ret p c e =>
    rw [hd, h] at h1
    simp only [DecodeResult.outcome, Frame.Outcome.code.injEq] at h1
    subst h1
    obtain ⟨h3, h4, _⟩ := h2 _ _ _ hd
    cases e with
    | none => exact absurd (h3.mp rfl) hc
    | some e =>
      obtain ⟨resp, ⟨r1, _⟩, r2⟩ := handlePacket_rejected env now client hd
      rw [(h4 hl).1] at r1
      exact ⟨resp, r2, r1⟩

/-- What the server hands over has at least ten bytes, so this applies to every frame it reads: a rejected
frame anywhere in the stream is answered once, and the following frames are handled with the client known
before it. -/
theorem C45_survives (env : Env) (ce : ConnEnv) (frames : List Bytes) (f : Bytes) (code : UInt8) (hf : ∀ f ∈ frames, WellFramed f)
    (hn : NoPanic env ce frames) (hw : WellFramed f) (h : Frame.outcome env none ⟨f, ce.spare frames.length⟩ = .code code) (hc : code ≠ 0)
    (tail : Bytes) (e : End) :
    ∃ resp, IsResponse env resp (UInt16.ofNat (Frame.pid f))
        { responsePacketID := UInt16.ofNat (Frame.pid f), processingResult := code, sdr := none } ∧
      handleConn env ce (frames.flatten ++ f ++ tail) e =
        (processAll env ce 0 0 frames).effs ++ .write resp ::
          handleFrom env ce e (frames.length + 1) (lastOr (idsBefore env ce frames frames.length) 0) tail := by
  obtain ⟨resp, r1, r2⟩ := C45_rejected env (ce.clock frames.length) (lastOr (idsBefore env ce frames frames.length) 0) _ code hw.2.1 h hc
  refine ⟨resp, r2, ?_⟩
  have hcl := (processAll_effs env ce frames hn).2
  have hh := handleFrom_frames env ce e 0 0 frames (f ++ tail) hf
  rw [hcl, ← List.append_assoc, ← handleConn_eq] at hh
  rw [hh]
  simp only [Nat.zero_add]
  rw [handleFrom_eq, readPacket_framed e hw]
  simp only [r1]
  rfl

set_option maxRecDepth 40000 in
example (env : Env) : Frame.outcome env none ⟨Ex.good.set 30 1, []⟩ = .code 137 := by with_unfolding_all rfl

/-! ## C46 -/

/-- An accepted response packet has no effect at all. -/
theorem C46_response_silent (env : Env) (now : Int) (client : UInt32) (pkt : Slice) (p : Package)
    (h : Package.decode env none {} pkt = .ret p 0 none) (hp : p.packetType = 0) :
    handlePacket env now client pkt = { effs := [], client := some client } :=
  handlePacket_response env now client h (by rw [hp]; decide)

/-- Nothing is written for an accepted application packet that has a record response. -/
theorem C46_record_response_silent (env : Env) (now : Int) (client : UInt32) (pkt : Slice) (p : Package) (recs : List ServiceDataRecord)
    (h : Accepts env pkt p recs) (hr : ∃ r ∈ recs, r.hasResp = true) : writes (handlePacket env now client pkt).effs = [] := by
  obtain ⟨r, subs, _, _, h3⟩ := handlePacket_appResp env now client h hr
  rw [h3]
  unfold writes
  rw [List.filterMap_map]
  exact List.filterMap_eq_nil_iff.mpr (fun _ _ => rfl)

set_option maxRecDepth 20000 in
example (env : Env) : ∃ p, Package.decode env none {} ⟨Ex.response, []⟩ = .ret p 0 none ∧ p.packetType = 0 := by
  refine ⟨respPackage, ?_, rfl⟩
  with_unfolding_all rfl

example (env : Env) (sp : Bytes) : Accepts env ⟨Ex.withResp, sp⟩ (Ex.pkg 79 238 19444 Ex.withRespRecs) Ex.withRespRecs ∧
    ∃ r ∈ Ex.withRespRecs, r.hasResp = true := ⟨Ex.withResp_accepts env sp, by decide⟩

/-- Two receivers connected to each other fall silent: whatever `pkt` is, answers to answers to its
answers are empty. -/
theorem C46_no_ping_pong (env : Env) (n1 n2 n3 : Int) (c1 c2 c3 : UInt32) (pkt : Slice) (sp2 sp3 : Bytes) :
    ∀ w ∈ writes (handlePacket env n1 c1 pkt).effs, ∀ v ∈ writes (handlePacket env n2 c2 ⟨w, sp2⟩).effs,
      handlePacket env n3 c3 ⟨v, sp3⟩ = { effs := [], client := some c3 } := by
  have silent : ∀ b pid r n c sp, IsResponse env b pid r → handlePacket env n c ⟨b, sp⟩ = { effs := [], client := some c } := by
    intro b pid r n c sp h
    obtain ⟨q, h1, h2, _⟩ := h {} sp
    exact handlePacket_response env n c h1 (by rw [h2]; decide)
  have kinds : ∀ n c pkt, ∀ w ∈ writes (handlePacket env n c pkt).effs, (∃ pid r, IsResponse env w pid r) ∨ ∃ pid, w = resultPacket pid := by
    intro n c pkt w hw
    rcases packet_cases env pkt with h | ⟨p, code, e, h⟩ | ⟨p, h, hp⟩ | ⟨p, recs, h⟩
    · rw [handlePacket_panic env n c h] at hw; cases hw
    · obtain ⟨resp, ⟨r1, _⟩, r2⟩ := handlePacket_rejected env n c h
      rw [r2] at hw
      simp [writes] at hw
      subst hw
      exact .inl ⟨_, _, r1⟩
    · rw [handlePacket_response env n c h hp] at hw; cases hw
    · rcases hasResp_cases recs with hr | hr
      · obtain ⟨ack, a1, a2⟩ := C44_acknowledged env n c pkt p recs h hr
        have e : writes (handlePacket env n c pkt).effs = ack ::
            (if recs.any (fun r => r.recordDataSet.any (·.isLogin)) then [resultPacket p.packetIdentifier] else []) := by
          rw [a2, writes_append, writes_saves]
          split <;> rfl
        rw [e] at hw
        rcases List.mem_cons.mp hw with rfl | hw
        · exact .inl ⟨_, _, a1⟩
        · right
          split at hw
          · exact ⟨_, List.mem_singleton.mp hw⟩
          · cases hw
      · rw [C46_record_response_silent env n c pkt p recs h hr] at hw; cases hw
  intro w hw v hv
  rcases kinds n1 c1 pkt w hw with ⟨pid, r, h⟩ | ⟨pid, rfl⟩
  · rw [silent w pid r n2 c2 sp2 h] at hv; cases hv
  · obtain ⟨q, e, h⟩ := resultPacket_decode env none {} pid sp2
    obtain ⟨resp, ⟨r1, _⟩, r2⟩ := handlePacket_rejected env n2 c2 h
    rw [r2] at hv
    simp [writes] at hv
    subst hv
    exact silent _ _ _ n3 c3 sp3 r1

/-! ## C48 -/

/-- The records saved for an accepted application packet, field by field (`stored`, `storedAs` in `Spec/Server.lean`). -/
theorem C48_saved (env : Env) (now : Int) (client : UInt32) (pkt : Slice) (p : Package) (recs : List ServiceDataRecord)
    (h : Accepts env pkt p recs) :
    saves (handlePacket env now client pkt).effs = stored p.packetIdentifier now client (beforeResp recs) := by
  rw [handlePacket_saves, accepted_of h]

/-- Nothing is saved for any other packet. -/
theorem C48_nothing_else (env : Env) (now : Int) (client : UInt32) (pkt : Slice) (h : ∀ p recs, ¬ Accepts env pkt p recs) :
    saves (handlePacket env now client pkt).effs = [] := by
  rw [handlePacket_saves, accepted_none h]

/-- What is stored for the example packet, in full. -/
example : stored 5 1000 77 (beforeResp Ex.goodRecs) =
    [{ client := 5
       packetID := 5
       navigationTimestamp := 1262304000
       receivedTimestamp := 1000
       anSensors := [{ sensorNumber := 3, value := 200 }]
       liquidSensors := [{ sensorNumber := 2, errorFlag := go!"0", valueMm := 0, valueL := 1000 }] },
     { client := 9
       packetID := 5
       navigationTimestamp := 1262304001
       receivedTimestamp := 1000 }] := by decide +kernel

/-! ## C47 -/

/-- The positions in a list of records, in order. -/
def positions (recs : List ServiceDataRecord) : List SrPosData := recs.flatMap (fun r => r.recordDataSet.filterMap (·.pos?))

/-- C47 is false: of two positions in a record only the last is saved (and both are acknowledged). -/
theorem C47_false (env : Env) : ∃ (f : Bytes) (recs : List ServiceDataRecord), WellFramed f ∧ (∀ r ∈ recs, r.hasResp = false) ∧
    (positions recs).length = 2 ∧
    ∀ now client sp, (∃ p, Accepts env ⟨f, sp⟩ p recs) ∧ (saves (handlePacket env now client ⟨f, sp⟩).effs).length = 1 := by
  refine ⟨Ex.twoPos, Ex.twoPosRecs, Ex.framed.1, by decide, by decide, fun now client sp => ⟨⟨_, Ex.twoPos_accepts env sp⟩, ?_⟩⟩
  rw [C48_saved env now client _ _ _ (Ex.twoPos_accepts env sp)]
  rfl

/-- A second way: what follows a record response is neither saved nor acknowledged. -/
theorem C47_false_after_response (env : Env) : ∃ (f : Bytes) (recs : List ServiceDataRecord), WellFramed f ∧
    (∀ r ∈ recs, (r.recordDataSet.filterMap (·.pos?)).length ≤ 1) ∧ (positions recs).length = 2 ∧
    ∀ now client sp, (∃ p, Accepts env ⟨f, sp⟩ p recs) ∧ (saves (handlePacket env now client ⟨f, sp⟩).effs).length = 1 := by
  refine ⟨Ex.withResp, Ex.withRespRecs, Ex.framed.2.2.1, by decide, by decide, fun now client sp => ⟨⟨_, Ex.withResp_accepts env sp⟩, ?_⟩⟩
  rw [C48_saved env now client _ _ _ (Ex.withResp_accepts env sp)]
  rfl

/-- What holds: if no record has a response or more than one position, then the saved records are exactly
the positions, in order. Missing: several positions in a record, records after a response. -/
theorem C47_all_saved_partial (env : Env) (now : Int) (client : UInt32) (pkt : Slice) (p : Package) (recs : List ServiceDataRecord)
    (h : Accepts env pkt p recs) (hr : ∀ r ∈ recs, r.hasResp = false) (h1 : ∀ r ∈ recs, (r.recordDataSet.filterMap (·.pos?)).length ≤ 1) :
    (saves (handlePacket env now client pkt).effs).map (fun n => (n.navigationTimestamp, n.latitude, n.longitude, n.speed, n.course)) =
      (positions recs).map (fun d => (GoTime.unix d.navigationTime, d.latitude, d.longitude, d.speed, d.direction)) := by
  rw [C48_saved env now client pkt p recs h, (beforeResp_all hr).1]
  exact stored_positions p.packetIdentifier now client recs h1

/-- In general one record is saved for each record with a position before the first response. -/
theorem C47_one_per_record (env : Env) (now : Int) (client : UInt32) (pkt : Slice) (p : Package) (recs : List ServiceDataRecord)
    (h : Accepts env pkt p recs) :
    (saves (handlePacket env now client pkt).effs).length = ((beforeResp recs).filter (·.hasPos)).length := by
  rw [C48_saved env now client pkt p recs h]
  exact stored_length p.packetIdentifier now client _

example (env : Env) (sp : Bytes) : Accepts env ⟨Ex.good, sp⟩ (Ex.pkg 91 141 48568 Ex.goodRecs) Ex.goodRecs ∧
    (∀ r ∈ Ex.goodRecs, r.hasResp = false) ∧ (∀ r ∈ Ex.goodRecs, (r.recordDataSet.filterMap (·.pos?)).length ≤ 1) ∧
    (positions Ex.goodRecs).length = 2 := ⟨Ex.good_accepts env sp, by decide, by decide, by decide⟩

/-! ## C49 -/

/-- Everything saved on a connection: frame by frame, record by record. -/
theorem C49_all_saved (env : Env) (ce : ConnEnv) (frames : List Bytes) (hf : ∀ f ∈ frames, WellFramed f) (hn : NoPanic env ce frames) :
    saves (handleConn env ce frames.flatten .blocked) = frames.zipIdx.flatMap (fun (f, i) =>
      match accepted env ⟨f, ce.spare i⟩ with
      | some (pid, recs) => stored pid (ce.clock i) (lastOr (idsBefore env ce frames i) 0) (beforeResp recs)
      | none => []) := by
  rw [C42_each_frame env ce frames hf hn]
  unfold saves
  rw [List.filterMap_flatMap]
  congr 1
  funext ⟨f, i⟩
  exact handlePacket_saves _ _ _ _

/-- The client of each saved record is the last identifier (object id or terminal id) in the frames before and
in the records of its frame up to and including its own; 0 if there was none. -/
theorem C49_attribution (env : Env) (ce : ConnEnv) (frames : List Bytes) (hf : ∀ f ∈ frames, WellFramed f) (hn : NoPanic env ce frames) :
    (saves (handleConn env ce frames.flatten .blocked)).map (·.client) = frames.zipIdx.flatMap (fun (f, i) =>
      match accepted env ⟨f, ce.spare i⟩ with
      | some (_, recs) => (beforeResp recs).zipIdx.filterMap (fun (r, k) =>
          if r.hasPos then some (lastOr (idsBefore env ce frames i ++ (recs.take (k + 1)).flatMap (·.ids)) 0) else none)
      | none => []) := by
  rw [C49_all_saved env ce frames hf hn, List.map_flatMap]
  congr 1
  funext ⟨f, i⟩
  simp only
  cases accepted env ⟨f, ce.spare i⟩ with
  | none => rfl
  | some x => exact stored_clients x.1 (ce.clock i) (idsBefore env ce frames i) x.2

example (env : Env) (sp : Bytes) : idsBefore env ⟨fun _ => 0, fun _ => sp⟩ [Ex.good, Ex.twoPos] 1 = [5, 9] := by
  unfold idsBefore packetIds
  simp only [List.take_succ_cons, List.take_zero, List.zipIdx_cons, List.zipIdx_nil, List.flatMap_cons, List.flatMap_nil, List.append_nil,
    accepted_of (Ex.good_accepts env sp)]
  rfl

/-- Nothing leaks from other connections: a connection starts with client 0, so a record with no
identifier in or before it is saved under client 0. -/
theorem C49_fresh (env : Env) (ce : ConnEnv) (frames : List Bytes) (hf : ∀ f ∈ frames, WellFramed f) (hn : NoPanic env ce frames)
    (h : ∀ i f, frames[i]? = some f → ∀ pid recs, accepted env ⟨f, ce.spare i⟩ = some (pid, recs) → ∀ r ∈ recs, r.ids = []) :
    ∀ n ∈ saves (handleConn env ce frames.flatten .blocked), n.client = 0 := by
  intro n hmem
  have h1 : n.client ∈ (saves (handleConn env ce frames.flatten .blocked)).map (·.client) := List.mem_map_of_mem hmem
  rw [C49_attribution env ce frames hf hn, List.mem_flatMap] at h1
  have hids : ∀ f i, (f, i) ∈ frames.zipIdx → packetIds env ⟨f, ce.spare i⟩ = [] := by
    intro f i hm
    unfold packetIds
    cases ha : accepted env ⟨f, ce.spare i⟩ with
    | none => rfl
    | some x =>
      have hr := h i f (List.mk_mem_zipIdx_iff_getElem?.mp hm) x.1 x.2 ha
      simp only
      have h2 : (beforeResp x.2).flatMap (·.ids) = [] :=
        List.flatMap_eq_nil_iff.mpr (fun r hr' => hr r ((List.takeWhile_prefix _).subset hr'))
      rw [h2, List.nil_append]
      split
      · rfl
      · rename_i r hfind
        have := hr r (List.mem_of_find?_eq_some hfind)
        unfold ServiceDataRecord.ids ServiceDataRecord.idsIn at this
        unfold ServiceDataRecord.idsIn
        rw [List.append_eq_nil_iff] at this ⊢
        refine ⟨this.1, ?_⟩
        rw [List.map_eq_nil_iff, List.filterMap_eq_nil_iff] at this ⊢
        exact fun a ha' => this.2 a ((List.takeWhile_prefix _).subset ha')
  have hb : ∀ i, idsBefore env ce frames i = [] := by
    intro i
    unfold idsBefore
    refine List.flatMap_eq_nil_iff.mpr ?_
    rintro ⟨f, k⟩ hm
    apply hids
    rw [List.mk_mem_zipIdx_iff_getElem?] at hm ⊢
    rw [List.getElem?_take] at hm
    split at hm
    · exact hm
    · cases hm
  obtain ⟨⟨f, i⟩, hm, hc⟩ := h1
  simp only at hc
  split at hc
  · rename_i pid recs ha
    obtain ⟨⟨r, k⟩, hm', hk⟩ := List.mem_filterMap.mp hc
    simp only at hk
    have hr := h i f (List.mk_mem_zipIdx_iff_getElem?.mp hm) pid recs ha
    rw [hb i, List.flatMap_eq_nil_iff.mpr (fun r hr' => hr r (List.mem_of_mem_take hr'))] at hk
    split at hk
    · injection hk with hk; exact hk.symm
    · cases hk
  · cases hc

/-! ## C50 -/

/-- The packet ids of the saved records (`storedId` in `Spec/Server.lean`). -/
theorem C50_stored_ids (env : Env) (now : Int) (client : UInt32) (pkt : Slice) (p : Package) (recs : List ServiceDataRecord)
    (h : Accepts env pkt p recs) : (saves (handlePacket env now client pkt).effs).map (·.packetID) =
      ((beforeResp recs).filter (·.hasPos)).map (fun r => storedId p.packetIdentifier r.recordDataSet) := by
  rw [C48_saved env now client pkt p recs h]
  exact stored_packetIDs _ _ _ _

/-- C50 is false: a record with counter 110 = 1 and counter 111 = 0 is saved under packet id 0. -/
theorem C50_false (env : Env) : ∃ (f : Bytes) (r : ServiceDataRecord), WellFramed f ∧
    r.recordDataSet.filterMap (·.counter?) = [{ counterNumber := 110, counterValue := 1 }, { counterNumber := 111, counterValue := 0 }] ∧
    ∀ now client sp, (∃ p, Accepts env ⟨f, sp⟩ p [r]) ∧ (saves (handlePacket env now client ⟨f, sp⟩).effs).map (·.packetID) = [0] := by
  refine ⟨Ex.counters, _, Ex.framed.2.2.2.1, ?_, fun now client sp => ⟨⟨_, Ex.counters_accepts env sp⟩, ?_⟩⟩
  · decide
  · rw [C50_stored_ids env now client _ _ _ (Ex.counters_accepts env sp)]
    decide

/-- Exactly when it is right: a record with counter 110 = `w` (three bytes) and then counter 111 = `v` (one
byte) is saved under `w + 2^24 v` iff the low byte of `w` is 0 and its middle and high bytes are the same;
otherwise under the bytes of `w` in the wrong order. Missing: all other numbers. -/
theorem C50_both_counters_partial (pid : UInt16) (subs : List RecordData) (w v : UInt32) (hw : w.toNat < 2 ^ 24) (hv : v.toNat < 2 ^ 8)
    (h : idCounters subs = [{ counterNumber := 110, counterValue := w }, { counterNumber := 111, counterValue := v }]) :
    (storedId pid subs).toNat = 2 ^ 8 * (w.toNat / 2 ^ 16) + 2 ^ 16 * (w.toNat / 2 ^ 8 % 2 ^ 8) + 2 ^ 24 * v.toNat ∧
    ((storedId pid subs).toNat = w.toNat + 2 ^ 24 * v.toNat ↔ w.toNat % 2 ^ 8 = 0 ∧ w.toNat / 2 ^ 8 % 2 ^ 8 = w.toNat / 2 ^ 16) := by
  have e : (storedId pid subs).toNat = 2 ^ 8 * (w.toNat / 2 ^ 16) + 2 ^ 16 * (w.toNat / 2 ^ 8 % 2 ^ 8) + 2 ^ 24 * v.toNat := by
    have hl : lowCounter subs = w := by
      unfold lowCounter
      rw [h]
      rfl
    unfold storedId
    rw [h, hl]
    simp only [List.getLast?_cons_cons, List.getLast?_singleton]
    rw [if_neg (by decide), UInt32.toNat_ofNat']
    have h1 : w.toNat / 2 ^ 24 = 0 := by omega
    have h2 : w.toNat / 2 ^ 16 % 2 ^ 8 = w.toNat / 2 ^ 16 := Nat.mod_eq_of_lt (by omega)
    have h3 : v.toNat % 2 ^ 8 = v.toNat := Nat.mod_eq_of_lt hv
    have h4 : w.toNat / 2 ^ 8 % 2 ^ 8 < 256 := Nat.mod_lt _ (by decide)
    have h5 : w.toNat / 2 ^ 16 < 256 := by omega
    rw [h1, h2, h3, Nat.mod_eq_of_lt (by omega)]
    omega
  refine ⟨e, ?_⟩
  rw [e]
  omega

/-- With counter 110 alone, the number is its value; with neither, the packet's own identifier. -/
theorem C50_one_counter (pid : UInt16) (subs : List RecordData) :
    (∀ w, idCounters subs = [{ counterNumber := 110, counterValue := w }] → storedId pid subs = w) ∧
    (idCounters subs = [] → (storedId pid subs).toNat = pid.toNat) := by
  constructor
  · intro w h
    unfold storedId
    rw [h]
    rfl
  · intro h
    unfold storedId
    rw [h]
    have := UInt16.toNat_lt pid
    show (UInt32.ofNat pid.toNat).toNat = _
    rw [UInt32.toNat_ofNat']
    omega

example : idCounters [Ex.counterSub 3 5, Ex.counterSub 110 0x121200, Ex.posSub 0, Ex.counterSub 111 7] =
    [{ counterNumber := 110, counterValue := 0x121200 }, { counterNumber := 111, counterValue := 7 }] := by decide

/-! ## C51 -/

/-- C51 is false for every packet: the authorization result is refused by the library (code 129), because its
packet type says response and its body is a record set. -/
theorem C51_false (env : Env) (key : Option SecretKey) (p0 : Package) (pid : UInt16) :
    ∃ b, createSrResultCode env pid 0 = .ok b ∧ ∀ sp, ∃ q e, Package.decode env key p0 ⟨b, sp⟩ = .ret q 129 (some e) :=
  ⟨resultPacket pid, createSrResultCode_eq env pid, fun sp => resultPacket_decode env key p0 pid sp⟩

/-- It is really sent: for the example packet, after the acknowledgement. -/
theorem C51_sent (env : Env) (now : Int) (client : UInt32) (sp : Bytes) :
    ∃ ack, writes (handlePacket env now client ⟨Ex.good, sp⟩).effs = [ack, resultPacket 5] := by
  obtain ⟨ack, _, h⟩ := C44_acknowledged env now client _ _ _ (Ex.good_accepts env sp) (by decide)
  refine ⟨ack, ?_⟩
  rw [h, writes_append, writes_saves]
  rfl

/-- What is right about it: the layout, the checksums, the packet id, and the body, which is a record set with a
result code subrecord, code 0. Missing: the packet type 1 that would make it decodable. -/
theorem C51_content_partial (env : Env) (pid : UInt16) :
    createSrResultCode env pid 0 = .ok (resultPacket pid) ∧ WellFramed (resultPacket pid) ∧
    Frame.pid (resultPacket pid) = (pid + 1).toNat ∧ Frame.pt (resultPacket pid) = 0 ∧
    byteAt (resultPacket pid) 10 = (crc8 ((resultPacket pid).take 10)).toNat ∧
    Frame.sfrcs (resultPacket pid) = (crc16 (Frame.body (resultPacket pid))).toNat ∧
    ∃ r, ServiceDataSet.decode env [] (Frame.body (resultPacket pid)) = .ok [r] ∧
      r.recordDataSet = [{ subrecordType := 9, subrecordLength := 1, subrecordData := some (.result { resultCode := 0 }) }] := by
  obtain ⟨h1, h2, h3, h4, h5, h6, h7, h8, h9, h10⟩ := resultPacket_facts pid
  refine ⟨createSrResultCode_eq env pid, ⟨rfl, by omega, by omega, ?_⟩, ?_, h4, ?_, ?_, ?_⟩
  · unfold Frame.declared
    rw [h7, h2, h3]
    rfl
  · have : Frame.pid (resultPacket pid) = (UInt8.ofNat ((pid + 1).toNat % 256)).toNat + 256 * (UInt8.ofNat ((pid + 1).toNat / 256)).toNat := rfl
    have hlt := UInt16.toNat_lt (pid + 1)
    rw [this, UInt8.toNat_ofNat', UInt8.toNat_ofNat']
    omega
  · rw [h6, h9]
  · rw [h5, resultBody_crc]
    unfold Frame.sfrcs Frame.after
    rw [h8, h3]
    rfl
  · rw [h5]
    exact ⟨_, resultBody_sds env, rfl⟩

end Egts
