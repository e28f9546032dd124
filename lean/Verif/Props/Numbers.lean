import Verif.Props.Receiver

/-! # The numbers of the packets that the receiver sends (C91) -/

namespace Egts

theorem byteAt_byte (b : Bytes) (i : Nat) : byteAt b i < 256 := UInt8.toNat_lt _

/-- The number of a response. -/
theorem IsResponse.pid {env : Env} {b : Bytes} {n : UInt16} {r : PtResponse} (h : IsResponse env b n r) : Frame.pid b = (n.toNat + 1) % 65536 := by
  obtain ⟨q, hq, _, hid, _⟩ := h {} []
  have hl : 10 ≤ b.length := by
    by_contra hb
    have h10 : 10 ≤ Frame.hcsPos b := by unfold Frame.hcsPos; split <;> omega
    obtain ⟨p', hp, _⟩ := (decode_header env none {} ⟨b, []⟩).1 (by show b.length ≤ Frame.hcsPos b; omega)
    rw [hp] at hq; cases hq
  have hh := (((decode_frame env none {} ⟨b, []⟩).2 q 0 none hq).2.1 hl).1
  have hb : Frame.pid b < 65536 := by
    have h1 := byteAt_byte b 7
    have h2 := byteAt_byte b 8
    unfold Frame.pid; omega
  have := congrArg UInt16.toNat (hh.symm.trans hid)
  rw [UInt16.toNat_ofNat', Nat.mod_eq_of_lt hb, UInt16.toNat_add] at this
  exact this

/-- The number of an authorization result. -/
theorem resultPacket_pid (n : UInt16) : Frame.pid (resultPacket n) = (n.toNat + 1) % 65536 :=
  ((C51_content_partial ⟨fun _ => 0⟩ n).2.2.1).trans (UInt16.toNat_add n 1)

/-- A login among the records. -/
def HasLogin (recs : List ServiceDataRecord) : Prop := ∃ r ∈ recs, ∃ x ∈ r.recordDataSet, x.isLogin = true

/-- What is written for one packet. -/
theorem packet_numbers (env : Env) (now : Int) (client : UInt32) (pkt : Slice) (hl : 10 ≤ pkt.data.length) :
    (∀ w ∈ writes (handlePacket env now client pkt).effs, Frame.pid w = (Frame.pid pkt.data + 1) % 65536) ∧
    (writes (handlePacket env now client pkt).effs).length ≤ 2 ∧
    ((∀ p recs, Accepts env pkt p recs → ¬ HasLogin recs) → (writes (handlePacket env now client pkt).effs).length ≤ 1) := by
  have hid : ∀ q code err, Package.decode env none {} pkt = .ret q code err → q.packetIdentifier.toNat = Frame.pid pkt.data := by
    intro q code err h
    have := ((decode_frame env none {} pkt).2 q code err h).2.1 hl
    rw [this.1, UInt16.toNat_ofNat']
    have h1 := byteAt_byte pkt.data 7
    have h2 := byteAt_byte pkt.data 8
    exact Nat.mod_eq_of_lt (by unfold Frame.pid; omega)
  rcases packet_cases env pkt with h | ⟨p, code, e, h⟩ | ⟨p, h, hp⟩ | ⟨p, recs, h⟩
  · rw [handlePacket_panic env now client h]
    exact ⟨fun w hw => by simp [writes] at hw, by simp [writes], fun _ => by simp [writes]⟩
  · obtain ⟨r, ⟨h1, _⟩, h2⟩ := handlePacket_rejected env now client h
    rw [h2]
    refine ⟨fun w hw => ?_, by simp [writes], fun _ => by simp [writes]⟩
    have : w = r := by simpa [writes] using hw
    rw [this, h1.pid, hid _ _ _ h]
  · rw [handlePacket_response env now client h hp]
    exact ⟨fun w hw => by simp [writes] at hw, by simp [writes], fun _ => by simp [writes]⟩
  · by_cases hr : ∃ r ∈ recs, r.hasResp = true
    · obtain ⟨r, subs, _, _, h2⟩ := handlePacket_appResp env now client h hr
      rw [h2, writes_saves]
      exact ⟨fun w hw => by simp at hw, by simp, fun _ => by simp⟩
    · obtain ⟨ack, ⟨h1, _, _⟩, h2⟩ := handlePacket_app env now client h (fun r hr' => by
        cases hh : r.hasResp with
        | false => rfl
        | true => exact absurd ⟨r, hr', hh⟩ hr)
      rw [h2]
      simp only [writes_append, writes_saves, List.nil_append]
      have ha : Frame.pid ack = (Frame.pid pkt.data + 1) % 65536 := by rw [h1.pid, hid _ _ _ h.1]
      by_cases hlog : recs.any (fun r => r.recordDataSet.any (·.isLogin)) = true
      · rw [if_pos hlog]
        refine ⟨fun w hw => ?_, by simp [writes], fun hno => ?_⟩
        · have : w = ack ∨ w = resultPacket p.packetIdentifier := by simpa [writes] using hw
          rcases this with rfl | rfl
          · exact ha
          · rw [resultPacket_pid, hid _ _ _ h.1]
        · refine absurd ?_ (hno p recs h)
          simpa [HasLogin] using hlog
      · rw [if_neg hlog]
        refine ⟨fun w hw => ?_, by simp [writes], fun _ => by simp [writes]⟩
        have : w = ack := by simpa [writes] using hw
        rw [this]; exact ha

/-- What is written on a connection, frame by frame. -/
theorem connection_numbers (env : Env) (ce : ConnEnv) (frames : List Bytes) (hf : ∀ f ∈ frames, WellFramed f) (hn : NoPanic env ce frames) (e : End) :
    writes (handleConn env ce frames.flatten e) = (frames.zipIdx.map fun x =>
      writes (handlePacket env (ce.clock x.2) (lastOr (idsBefore env ce frames x.2) 0) ⟨x.1, ce.spare x.2⟩).effs).flatten := by
  have key : writes (handleConn env ce frames.flatten e) = writes (handleConn env ce frames.flatten .blocked) := by
    obtain ⟨h1, h2, h3⟩ := C42_pipelined env ce frames hf hn
    cases e
    · rw [h2, h1, writes_append]; simp [writes]
    · rw [h3, h1, writes_append]; simp [writes]
    · rfl
  rw [key, C42_each_frame env ce frames hf hn]
  generalize frames.zipIdx = l
  induction l with
  | nil => rfl
  | cons x l ih => rw [List.flatMap_cons, writes_append, ih]; rfl

/-- Whatever is written in answer to a frame bears the number after that of the frame: on a connection, in order, at most two packets for each
frame. -/
theorem C91_numbers (env : Env) (ce : ConnEnv) (frames : List Bytes) (hf : ∀ f ∈ frames, WellFramed f) (hn : NoPanic env ce frames) (e : End) :
    ∃ answers, writes (handleConn env ce frames.flatten e) = List.flatten answers ∧
      List.Forall₂ (fun f ws => ws.length ≤ 2 ∧ ∀ w ∈ ws, Frame.pid w = (Frame.pid f + 1) % 65536) frames answers := by
  refine ⟨_, connection_numbers env ce frames hf hn e, ?_⟩
  rw [List.forall₂_map_right_iff, List.forall₂_iff_get]
  refine ⟨by simp, fun i h1 h2 => ?_⟩
  simp only [List.get_eq_getElem, List.getElem_zipIdx]
  have hw := hf frames[i] (List.getElem_mem _)
  obtain ⟨g1, g2, _⟩ := packet_numbers env (ce.clock (0 + i)) (lastOr (idsBefore env ce frames (0 + i)) 0) ⟨frames[i], ce.spare (0 + i)⟩ hw.2.1
  exact ⟨g2, g1⟩

/-- Full statement of C91 (not provable): the packets that the receiver sends have different numbers if those that it received had. To a login
two packets are sent, which have the same number. -/
theorem C91_false (env : Env) (now : Int) (client : UInt32) (pkt : Slice) (hl : 10 ≤ pkt.data.length) (p : Package) (recs : List ServiceDataRecord)
    (h : Accepts env pkt p recs) (hr : ∀ r ∈ recs, r.hasResp = false) (hlog : HasLogin recs) :
    (writes (handlePacket env now client pkt).effs).map Frame.pid = [(Frame.pid pkt.data + 1) % 65536, (Frame.pid pkt.data + 1) % 65536] := by
  obtain ⟨ack, _, h2⟩ := C44_acknowledged env now client pkt p recs h hr
  have hb : recs.any (fun r => r.recordDataSet.any (·.isLogin)) = true := by simpa [HasLogin] using hlog
  rw [if_pos hb] at h2
  have e : writes (handlePacket env now client pkt).effs = [ack, resultPacket p.packetIdentifier] := by
    rw [h2, writes_append, writes_saves]; rfl
  have g := (packet_numbers env now client pkt hl).1
  rw [e] at g ⊢
  simp only [List.map_cons, List.map_nil]
  rw [g ack (by simp), g (resultPacket _) (by simp)]

example (env : Env) (sp : Bytes) : Accepts env ⟨Ex.good, sp⟩ (Ex.pkg 91 141 48568 Ex.goodRecs) Ex.goodRecs ∧
    (∀ r ∈ Ex.goodRecs, r.hasResp = false) ∧ HasLogin Ex.goodRecs ∧ 10 ≤ Ex.good.length :=
  ⟨Ex.good_accepts env sp, by decide, by unfold HasLogin; decide, by decide⟩

/-- If there are no logins, the numbers are different. Missing: logins (`C91_false`). -/
theorem C91_distinct_partial (env : Env) (ce : ConnEnv) (frames : List Bytes) (hf : ∀ f ∈ frames, WellFramed f) (hn : NoPanic env ce frames) (e : End)
    (hd : (frames.map Frame.pid).Nodup)
    (hlog : ∀ i f, frames[i]? = some f → ∀ p recs, Accepts env ⟨f, ce.spare i⟩ p recs → ¬ HasLogin recs) :
    ((writes (handleConn env ce frames.flatten e)).map Frame.pid).Nodup := by
  rw [connection_numbers env ce frames hf hn e, List.map_flatten, List.map_map, List.nodup_flatten]
  constructor
  · intro l hl
    obtain ⟨⟨f, i⟩, hx, rfl⟩ := List.mem_map.mp hl
    have hfi := List.mem_zipIdx_iff_getElem?.mp hx
    have hw := hf f (List.mem_of_getElem? hfi)
    have h1 := (packet_numbers env (ce.clock i) (lastOr (idsBefore env ce frames i) 0) ⟨f, ce.spare i⟩ hw.2.1).2.2 (hlog i f hfi)
    simp only [Function.comp]
    match hws : writes (handlePacket env (ce.clock i) (lastOr (idsBefore env ce frames i) 0) ⟨f, ce.spare i⟩).effs, h1 with
    | [], _ => simp
    | [w], _ => simp
  · rw [List.pairwise_map]
    have hp : frames.zipIdx.Pairwise fun x y => Frame.pid x.1 ≠ Frame.pid y.1 := by
      have : (frames.zipIdx.map fun x => Frame.pid x.1) = frames.map Frame.pid := by
        rw [show (fun x : Bytes × Nat => Frame.pid x.1) = Frame.pid ∘ Prod.fst from rfl, ← List.map_map, List.zipIdx_map_fst]
      rw [← this, List.Nodup, List.pairwise_map] at hd
      exact hd
    refine List.Pairwise.imp_of_mem ?_ hp
    rintro ⟨f, i⟩ ⟨g, j⟩ hi hj hne
    have hfi := List.mem_zipIdx_iff_getElem?.mp hi
    have hgj := List.mem_zipIdx_iff_getElem?.mp hj
    have h1 := (packet_numbers env (ce.clock i) (lastOr (idsBefore env ce frames i) 0) ⟨f, ce.spare i⟩ (hf f (List.mem_of_getElem? hfi)).2.1).1
    have h2 := (packet_numbers env (ce.clock j) (lastOr (idsBefore env ce frames j) 0) ⟨g, ce.spare j⟩ (hf g (List.mem_of_getElem? hgj)).2.1).1
    intro a ha hb
    obtain ⟨u, hu, rfl⟩ := List.mem_map.mp ha
    obtain ⟨v, hv, e2⟩ := List.mem_map.mp hb
    have := (h1 u hu).symm.trans (e2.symm.trans (h2 v hv))
    have l1 := byteAt_byte f 7
    have l2 := byteAt_byte f 8
    have l3 := byteAt_byte g 7
    have l4 := byteAt_byte g 8
    simp only [Frame.pid] at this hne
    omega

set_option maxRecDepth 40000 in
theorem damaged_decode (env : Env) : ∃ q e, Package.decode env none {} ⟨Ex.twoPos.set 7 6, []⟩ = .ret q 137 (some e) :=
  ⟨_, _, by with_unfolding_all rfl⟩

/-- A position, and a damaged packet with another number; both are answered. -/
example (env : Env) (ce : ConnEnv) (hce : ∀ i, ce.spare i = []) :
    (∀ f ∈ [Ex.twoPos, Ex.twoPos.set 7 6], WellFramed f) ∧ NoPanic env ce [Ex.twoPos, Ex.twoPos.set 7 6] ∧
    ([Ex.twoPos, Ex.twoPos.set 7 6].map Frame.pid).Nodup ∧
    (∀ i f, [Ex.twoPos, Ex.twoPos.set 7 6][i]? = some f → ∀ p recs, Accepts env ⟨f, ce.spare i⟩ p recs → ¬ HasLogin recs) ∧
    (writes (handleConn env ce [Ex.twoPos, Ex.twoPos.set 7 6].flatten .blocked)).map Frame.pid = [6, 7] := by
  obtain ⟨q, e, hbad⟩ := damaged_decode env
  have hgood := Ex.twoPos_accepts env []
  have hf : ∀ f ∈ [Ex.twoPos, Ex.twoPos.set 7 6], WellFramed f := by decide
  have hn : NoPanic env ce [Ex.twoPos, Ex.twoPos.set 7 6] := by
    intro i f h
    rw [hce]
    match i, h with
    | 0, h => cases h; rw [hgood.1]; simp
    | 1, h => cases h; rw [hbad]; simp
  have hlog : ¬ HasLogin Ex.twoPosRecs := by unfold HasLogin; decide
  refine ⟨hf, hn, by decide, ?_, ?_⟩
  · intro i f h p recs ha
    rw [hce] at ha
    match i, h with
    | 0, h =>
      cases h
      have h1 := accepted_of ha
      rw [accepted_of hgood] at h1
      rw [← (Prod.mk.inj (Option.some.inj h1)).2]
      exact hlog
    | 1, h =>
      cases h
      have := ha.1
      rw [hbad] at this; cases this
  · rw [connection_numbers env ce _ hf hn]
    simp only [List.zipIdx_cons, List.zipIdx_nil, List.map_cons, List.map_nil, List.flatten_cons, List.flatten_nil, List.append_nil, hce, List.map_append]
    obtain ⟨ack, _, h1⟩ := C44_acknowledged env (ce.clock 0) (lastOr (idsBefore env ce [Ex.twoPos, Ex.twoPos.set 7 6] 0) 0) _ _ _ hgood (by decide)
    obtain ⟨r, _, h2⟩ := handlePacket_rejected env (ce.clock (0 + 1)) (lastOr (idsBefore env ce [Ex.twoPos, Ex.twoPos.set 7 6] (0 + 1)) 0) hbad
    have g1 := (packet_numbers env (ce.clock 0) (lastOr (idsBefore env ce [Ex.twoPos, Ex.twoPos.set 7 6] 0) 0) ⟨Ex.twoPos, []⟩ (by decide)).1
    have g2 := (packet_numbers env (ce.clock (0 + 1)) (lastOr (idsBefore env ce [Ex.twoPos, Ex.twoPos.set 7 6] (0 + 1)) 0) ⟨Ex.twoPos.set 7 6, []⟩ (by decide)).1
    have e1 : writes (handlePacket env (ce.clock 0) (lastOr (idsBefore env ce [Ex.twoPos, Ex.twoPos.set 7 6] 0) 0) ⟨Ex.twoPos, []⟩).effs = [ack] := by
      rw [h1, writes_append, writes_saves]; rfl
    have e2 : writes (handlePacket env (ce.clock (0 + 1)) (lastOr (idsBefore env ce [Ex.twoPos, Ex.twoPos.set 7 6] (0 + 1)) 0) ⟨Ex.twoPos.set 7 6, []⟩).effs = [r] := by
      rw [h2]; rfl
    rw [e1] at g1 ⊢
    rw [e2] at g2 ⊢
    simp only [List.map_cons, List.map_nil]
    rw [g1 ack (by simp), g2 r (by simp)]
    decide

end Egts
