import Verif.Proofs.Gen

/-! # packet-gen and the receiver together (C59) -/

namespace Egts

theorem intToU16_toNat (i : Int) (h : 0 ≤ i ∧ i < 65536) : ((intToU16 i).toNat : Int) = i := by
  unfold intToU16
  rw [UInt16.toNat_ofNat', Int.emod_eq_of_lt h.1 h.2, Nat.mod_eq_of_lt (by omega)]
  omega

theorem intToU32_toNat (i : Int) (h : 0 ≤ i ∧ i < 4294967296) : ((intToU32 i).toNat : Int) = i := by
  unfold intToU32
  rw [UInt32.toNat_ofNat', Int.emod_eq_of_lt h.1 h.2, Nat.mod_eq_of_lt (by omega)]
  omega

theorem seconds_fits {n : Int} (h : -9223372036 ≤ n ∧ n ≤ 9223372036) : seconds n = n * 1000000000 := by
  rw [seconds, Int.bmod_eq_of_le] <;> omega

/-- The network lets `packet-gen` send its packet. -/
def GenNet.up (net : GenNet) : Prop := net.resolves = true ∧ net.connects = true ∧ net.writes = true

theorem genMain_sends (env : Env) (parse : Bytes → Option GoTime) (a : GenArgs) (net : GenNet) (out : Bytes) (hpid : a.pid ≠ 0) (hoid : a.oid ≠ 0)
    (hts : a.ts ≠ []) (hp : (parse a.ts).isSome) (he : ((genPackage a).encode env none).2 = .ok out) (hn : net.up) :
    genMain env parse a net = (some out, match net.reply with
      | none => .exit .readFailed 1
      | some (delay, ack) =>
        if (delay : Int) < seconds a.ackTimeout then checkAck env (intToU16 a.pid) (ack.take 1024) else .exit .readFailed 1) := by
  obtain ⟨t, ht⟩ := Option.isSome_iff_exists.mp hp
  obtain ⟨n1, n2, n3⟩ := hn
  unfold genMain
  simp only [if_neg hpid, if_neg hoid, if_neg hts, ht, he, n1, n2, n3]
  cases net.reply with
  | none => rfl
  | some r =>
    obtain ⟨d, ack⟩ := r
    simp only [not_true_eq_false, if_false]
    split <;> rfl

/-- For all the parameters in range, with a timestamp that can be parsed: the bytes `packet-gen` sends make the receiver save
exactly one record and write exactly one packet; the record has the client id, packet id, liquid level and (within the
resolution of the wire format) the coordinates that were given; and if that packet comes back within the timeout, then
`packet-gen` reports that the packet was processed. Missing: the saved time is a constant, not the given timestamp
(`C59_false_time`), and the exit code is 1 (`C59_false_exit_code`). -/
theorem C59_end_to_end_partial (env : Env) (parse : Bytes → Option GoTime) (a : GenArgs) (hpid : 1 ≤ a.pid ∧ a.pid < 65536)
    (hoid : 1 ≤ a.oid ∧ a.oid < 4294967296) (hliq : 0 ≤ a.liqLvl ∧ a.liqLvl < 4294967296) (hlat : 0 ≤ a.lat ∧ a.lat ≤ 90)
    (hlon : 0 ≤ a.lon ∧ a.lon ≤ 180) (hts : a.ts ≠ []) (hp : (parse a.ts).isSome) :
    ∃ f, (∀ net : GenNet, net.up → (genMain env parse a net).1 = some f) ∧
      ∀ ce : ConnEnv, ∃ n ack, handleConn env ce f .blocked = [.save n, .write ack] ∧
        (n.client.toNat : Int) = a.oid ∧ (n.packetID.toNat : Int) = a.pid ∧
        |n.latitude - a.lat| ≤ 22 / 1000000000 ∧ |n.longitude - a.lon| ≤ 44 / 1000000000 ∧
        (∃ s, n.liquidSensors = [s] ∧ s.sensorNumber = 1 ∧ (s.valueMm.toNat : Int) = a.liqLvl ∧ s.valueL = 0) ∧ n.anSensors = [] ∧
        n.speed = 34 ∧ n.course = 172 ∧ n.navigationTimestamp = 1613781040 ∧ n.receivedTimestamp = ce.clock 0 ∧
        ∀ (net : GenNet) (delay : Nat), net.up → net.reply = some (delay, ack) → (delay : Int) < a.ackTimeout * 1000000000 → a.ackTimeout ≤ 9223372036 →
          (genMain env parse a net).2 = .exit .processed 1 := by
  obtain ⟨f, hf, hw, hacc⟩ := gen_received env a hlat hlon
  have hsend := fun net hn => genMain_sends env parse a net f (by omega) (by omega) hts hp hf hn
  refine ⟨f, fun net hn => by rw [hsend net hn], fun ce => ?_⟩
  obtain ⟨p, r, d, t1, t2, l1, l2, ha, hpi, hob, hoi, hst, hrn, hset, hla, hlo, hd⟩ := hacc (ce.spare 0)
  have hresp : ∀ x ∈ [r], x.hasResp = false := by
    intro x hx
    simp only [List.mem_singleton] at hx
    subst hx
    rw [ServiceDataRecord.hasResp, hset]
    rfl
  obtain ⟨ack, ⟨h1, hn, hc⟩, h2⟩ := handlePacket_app env (ce.clock 0) 0 ha hresp
  have hlen := (createPtResponse_framed env _ _ _ [r] hn ack hc).2.1
  simp only [List.cons_ne_nil, if_false, List.length_singleton] at hlen
  have hstored : stored p.packetIdentifier (ce.clock 0) 0 [r] =
      [storedAs (ce.clock 0) (intToU32 a.oid) (UInt32.ofNat (intToU16 a.pid).toNat) r.recordDataSet d] := by
    have hids : r.ids = [intToU32 a.oid] := by
      unfold ServiceDataRecord.ids ServiceDataRecord.idsIn
      rw [hset, hob, hoi]
      rfl
    have hid : storedId p.packetIdentifier r.recordDataSet = UInt32.ofNat (intToU16 a.pid).toNat := by
      rw [hset, hpi]
      rfl
    have hlast : (r.recordDataSet.filterMap (·.pos?)).getLast? = some d := by rw [hset]; rfl
    unfold stored
    simp only [List.zipIdx_cons, List.zipIdx_nil, List.filterMap_cons, List.filterMap_nil, hlast, Option.map_some, hid, Nat.zero_add,
      List.take_succ_cons, List.take_zero, List.flatMap_cons, List.flatMap_nil, hids, List.append_nil]
    rfl
  have heffs : handlePacket env (ce.clock 0) 0 ⟨f, ce.spare 0⟩ = { effs := [.save (storedAs (ce.clock 0) (intToU32 a.oid) (UInt32.ofNat (intToU16 a.pid).toNat) r.recordDataSet d), .write ack], client := (handlePacket env (ce.clock 0) 0 ⟨f, ce.spare 0⟩).client } := by
    have hlog : ([r] : List ServiceDataRecord).any (fun r => r.recordDataSet.any (·.isLogin)) = false := by
      simp only [List.any_cons, List.any_nil, Bool.or_false, hset]
      rfl
    rw [h2, hstored, hlog]
    rfl
  have hclient : ∃ c, (handlePacket env (ce.clock 0) 0 ⟨f, ce.spare 0⟩).client = some c := by
    rw [h2]
    exact ⟨_, rfl⟩
  obtain ⟨c, hcl⟩ := hclient
  refine ⟨storedAs (ce.clock 0) (intToU32 a.oid) (UInt32.ofNat (intToU16 a.pid).toNat) r.recordDataSet d, ack, ?_, intToU32_toNat _ (by omega), ?_, hla, hlo, ?_, ?_,
    by rw [hd]; rfl, by rw [hd]; rfl, by rw [hd]; rfl, rfl, ?_⟩
  · have hr := readPacket_framed (t := []) .blocked hw
    rw [List.append_nil] at hr
    rw [handleConn_eq, handleFrom_eq, hr]
    simp only [hcl]
    rw [heffs]
    simp only [List.cons_append, List.nil_append, List.cons.injEq, true_and]
    rw [handleFrom_eq]
    rfl
  · show ((UInt32.ofNat (intToU16 a.pid).toNat).toNat : Int) = a.pid
    rw [UInt32.toNat_ofNat', Nat.mod_eq_of_lt (by have := (intToU16 a.pid).toNat_lt; omega)]
    exact intToU16_toNat _ (by omega)
  · refine ⟨{ sensorNumber := 1, errorFlag := go!"1", valueMm := intToU32 a.liqLvl, valueL := 0 }, ?_, rfl, intToU32_toNat _ hliq, rfl⟩
    show r.recordDataSet.flatMap (·.liquids) = _
    rw [hset]
    rfl
  · show r.recordDataSet.flatMap (·.analog) = _
    rw [hset]
    rfl
  · intro net delay hn hre hdel hmax
    rw [hsend net hn, hre]
    simp only [seconds_fits (show -9223372036 ≤ a.ackTimeout ∧ a.ackTimeout ≤ 9223372036 by omega), if_pos hdel]
    rw [List.take_of_length_le (by omega)]
    unfold checkAck
    obtain ⟨q, q1, q2, q3, q4⟩ := h1 {} (zeros (1024 - ack.length))
    rw [q1]
    simp only [q4]
    rw [hpi, if_neg (by simp [acceptance]), if_neg (by simp [acceptance])]
    rfl

/-- The hypotheses are met, for a parser that accepts one timestamp only. -/
def genExample : GenArgs :=
  { pid := 12, oid := 133552, ts := go!"2021-11-05T10:00:00Z", liqLvl := 77, lat := 45, lon := 60, ackTimeout := 5 }

example : (1 ≤ genExample.pid ∧ genExample.pid < 65536) ∧ (1 ≤ genExample.oid ∧ genExample.oid < 4294967296) ∧
    (0 ≤ genExample.liqLvl ∧ genExample.liqLvl < 4294967296) ∧ (0 ≤ genExample.lat ∧ genExample.lat ≤ 90) ∧
    (0 ≤ genExample.lon ∧ genExample.lon ≤ 180) ∧ genExample.ts ≠ [] ∧
    ((fun b => if b = go!"2021-11-05T10:00:00Z" then some (0 : GoTime) else none : Bytes → Option GoTime) genExample.ts).isSome := by
  refine ⟨by decide, by decide, by decide, ?_, ?_, by decide, by decide⟩ <;> (show (_ : Rat) ≤ _ ∧ (_ : Rat) ≤ _; decide)

/-- Full statement of C59 (not provable), first part: the saved time is not the given one, unless that happens to be
2021-02-20 00:30:40 UTC. -/
theorem C59_false_time (env : Env) (parse : Bytes → Option GoTime) (a : GenArgs) (hpid : 1 ≤ a.pid ∧ a.pid < 65536)
    (hoid : 1 ≤ a.oid ∧ a.oid < 4294967296) (hliq : 0 ≤ a.liqLvl ∧ a.liqLvl < 4294967296) (hlat : 0 ≤ a.lat ∧ a.lat ≤ 90)
    (hlon : 0 ≤ a.lon ∧ a.lon ≤ 180) (hts : a.ts ≠ []) (t : GoTime) (hp : parse a.ts = some t) (ht : GoTime.unix t ≠ 1613781040)
    (net : GenNet) (hn : net.up) (ce : ConnEnv) :
    ∃ f n ack, (genMain env parse a net).1 = some f ∧ handleConn env ce f .blocked = [.save n, .write ack] ∧
      n.navigationTimestamp ≠ GoTime.unix t := by
  obtain ⟨f, h1, h2⟩ := C59_end_to_end_partial env parse a hpid hoid hliq hlat hlon hts (by rw [hp]; rfl)
  obtain ⟨n, ack, h3, _, _, _, _, _, _, _, _, h4, _⟩ := h2 ce
  exact ⟨f, n, ack, h1 net hn, h3, by rw [h4]; exact ht.symm⟩

/-- Second part: the exit code never tells success. -/
theorem C59_false_exit_code (env : Env) (parse : Bytes → Option GoTime) (a : GenArgs) (net : GenNet) (m : GenMsg) (c : Nat)
    (h : (genMain env parse a net).2 = .exit m c) : c = 1 := by
  have hc : ∀ pid ack, checkAck env pid ack = .exit m c → c = 1 := by
    intro pid ack h
    unfold checkAck at h
    repeat' split at h
    all_goals first | (injection h with _ h; exact h.symm) | cases h
  unfold genMain at h
  repeat' split at h
  all_goals first | (injection h with _ h; exact h.symm) | exact hc _ _ h | cases h

/-- Third part: without `-timeout` (or with one that is not positive) no reply is ever accepted, however fast. -/
theorem C59_false_no_timeout (env : Env) (parse : Bytes → Option GoTime) (a : GenArgs) (net : GenNet) (h : -9223372036 ≤ a.ackTimeout ∧ a.ackTimeout ≤ 0)
    (c : Nat) : (genMain env parse a net).2 ≠ .exit .processed c := by
  unfold genMain
  rw [seconds_fits (by omega)]
  repeat' split
  any_goals simp
  omega

/-- Nor with a timeout of more than 292 years: it overflows and has passed long ago. -/
theorem C59_false_long_timeout (env : Env) (parse : Bytes → Option GoTime) (a : GenArgs) (net : GenNet)
    (h : 9223372037 ≤ a.ackTimeout ∧ a.ackTimeout ≤ 18446744073) (c : Nat) : (genMain env parse a net).2 ≠ .exit .processed c := by
  have hs : seconds a.ackTimeout < 0 := by
    unfold seconds Int.bmod
    have e : (a.ackTimeout * 1000000000) % (18446744073709551616 : Nat) = a.ackTimeout * 1000000000 := Int.emod_eq_of_lt (by omega) (by omega)
    simp only [e]
    split <;> omega
  unfold genMain
  repeat' split
  any_goals simp
  omega

example : -9223372036 ≤ ({} : GenArgs).ackTimeout ∧ ({} : GenArgs).ackTimeout ≤ 0 := by decide

/-- Fourth part: a positive response that confirms no record makes the program panic. -/
theorem C59_false_panic (env : Env) (parse : Bytes → Option GoTime) (a : GenArgs) (hpid : a.pid ≠ 0) (hoid : a.oid ≠ 0) (hts : a.ts ≠ [])
    (hlat : 0 ≤ a.lat ∧ a.lat ≤ 90) (hlon : 0 ≤ a.lon ∧ a.lon ≤ 180) (hp : (parse a.ts).isSome)
    (h : 0 < a.ackTimeout ∧ a.ackTimeout ≤ 9223372036) :
    ∃ ack, IsResponse env ack (intToU16 a.pid) { responsePacketID := intToU16 a.pid, processingResult := 0, sdr := none } ∧
      ∀ net : GenNet, net.up → net.reply = some (0, ack) → (genMain env parse a net).2 = .panic := by
  obtain ⟨f, hf, _⟩ := gen_received env a hlat hlon
  obtain ⟨ack, hc, _, hr⟩ := createPtResponse_ok env (intToU16 a.pid) 0 0 [] (by simp)
  have hl := (createPtResponse_framed env (intToU16 a.pid) 0 0 [] (by simp) ack hc).2.1
  simp only [if_true] at hl
  refine ⟨ack, hr, fun net hn hre => ?_⟩
  rw [genMain_sends env parse a net f hpid hoid hts hp hf hn, hre]
  have h0 : ((0 : Nat) : Int) < seconds a.ackTimeout := by rw [seconds_fits (by omega)]; omega
  simp only [if_pos h0]
  rw [List.take_of_length_le (by omega)]
  unfold checkAck
  obtain ⟨q, q1, q2, q3, q4⟩ := hr {} (zeros (1024 - ack.length))
  rw [q1]
  simp only [q4]
  rw [if_neg (by simp [respSection]), if_neg (by simp [respSection])]
  rfl

/-! ## C63 -/

/-- Success is reported only if a reply came in time, and is (its first 1024 bytes are) a response to this very packet with
result 0 in which no record is confirmed with a status other than 0. -/
theorem C63_success_is_earned (env : Env) (parse : Bytes → Option GoTime) (a : GenArgs) (net : GenNet) (c : Nat)
    (h : (genMain env parse a net).2 = .exit .processed c) :
    ∃ delay ack q recs, net.reply = some (delay, ack) ∧
      (-9223372036 ≤ a.ackTimeout ∧ a.ackTimeout ≤ 9223372036 → (delay : Int) < a.ackTimeout * 1000000000) ∧
      Package.decode env none {} ⟨ack.take 1024, zeros (1024 - (ack.take 1024).length)⟩ = .ret q 0 none ∧
      q.servicesFrameData = some (.resp { responsePacketID := intToU16 a.pid, processingResult := 0, sdr := some recs }) ∧
      ∀ r ∈ recs, ∀ s ∈ r.recordDataSet, s.subrecordType = 0 → ∀ x, s.subrecordData = some (.resp x) → x.recordStatus = 0 := by
  have hc : ∀ pid ack, checkAck env pid ack = .exit .processed c →
      ∃ q recs, Package.decode env none {} ⟨ack, zeros (1024 - ack.length)⟩ = .ret q 0 none ∧
        q.servicesFrameData = some (.resp { responsePacketID := pid, processingResult := 0, sdr := some recs }) ∧ statusesOk recs = true := by
    intro pid ack h
    unfold checkAck at h
    split at h
    · cases h
    · cases h
    · rename_i q code hd
      split at h
      · rename_i r hr
        split at h
        · cases h
        · split at h
          · cases h
          · split at h
            · cases h
            · rename_i h1 h2 _ recs hs
              split at h
              · rename_i hok
                have h0 : code = 0 := ((C12_codes env none {} q _ code none hd).1).mp rfl
                subst h0
                refine ⟨q, recs, hd, ?_, hok⟩
                rw [hr]
                simp only [ne_eq, not_not] at h1 h2
                cases r
                simp only at h1 h2 hs
                subst h1 h2 hs
                rfl
              · cases h
      · cases h
  have hst : ∀ recs, statusesOk recs = true →
      ∀ r ∈ recs, ∀ s ∈ r.recordDataSet, s.subrecordType = 0 → ∀ x, s.subrecordData = some (.resp x) → x.recordStatus = 0 := by
    intro recs hok r hr s hs ht x hx
    simp only [statusesOk, List.all_eq_true] at hok
    have := hok r hr s hs
    rw [if_pos ht, hx] at this
    simpa using this
  unfold genMain at h
  split at h; · cases h
  split at h; · cases h
  split at h; · cases h
  split at h
  · cases h
  split at h
  · cases h
  · cases h
  split at h; · cases h
  split at h; · cases h
  split at h; · cases h
  split at h
  · cases h
  split at h
  · rename_i delay ack hre hd
    obtain ⟨q, recs, h1, h2, h3⟩ := hc _ _ h
    exact ⟨delay, ack, q, recs, hre, fun hf => by rw [seconds_fits hf] at hd; exact hd, h1, h2, hst recs h3⟩
  · cases h

/-- Success is reported in some runs. -/
example (env : Env) : ∃ net : GenNet, (genMain env (fun _ => some 0) genExample net).2 = .exit .processed 1 := by
  obtain ⟨f, _, h⟩ := C59_end_to_end_partial env (fun _ => some 0) genExample (by decide) (by decide) (by decide)
    (by show (_ : Rat) ≤ _ ∧ (_ : Rat) ≤ _; decide) (by show (_ : Rat) ≤ _ ∧ (_ : Rat) ≤ _; decide) (by decide) rfl
  obtain ⟨n, ack, _, _, _, _, _, _, _, _, _, _, _, h⟩ := h ⟨fun _ => 0, fun _ => []⟩
  exact ⟨⟨true, true, true, some (0, ack)⟩, h _ 0 ⟨rfl, rfl, rfl⟩ rfl (by decide) (by decide)⟩

/-- Nothing is sent unless the network is up and the required parameters are there and valid. -/
theorem C63_nothing_sent_otherwise (env : Env) (parse : Bytes → Option GoTime) (a : GenArgs) (net : GenNet) (f : Bytes)
    (h : (genMain env parse a net).1 = some f) : net.up ∧ a.pid ≠ 0 ∧ a.oid ≠ 0 ∧ a.ts ≠ [] ∧ (parse a.ts).isSome := by
  unfold genMain at h
  repeat' split at h
  all_goals simp_all [GenNet.up]

end Egts
