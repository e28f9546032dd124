import Verif.Props.Receiver

/-! # What the receiver writes is a sequence of whole packets (C62) -/

namespace Egts

/-- The responses made by the receiver are well framed, and their length is known. -/
theorem createPtResponse_framed (env : Env) (pid : UInt16) (code st : UInt8) (recs : List ServiceDataRecord) (h : recs.length ≤ 10900) (b : Bytes)
    (hb : createPtResponse env pid code st (recs.map confirmation) = .ok b) :
    WellFramed b ∧ b.length = (if recs = [] then 16 else 23 + 6 * recs.length) ∧
      Frame.hl b = 11 ∧ Frame.fdl b = if recs = [] then 3 else 10 + 6 * recs.length := by
  obtain ⟨fdl, hc⟩ := createPtResponse_eq env pid code st recs
  obtain ⟨c, ec, lc⟩ := respSection_encode env pid code st recs
  rw [hb] at hc
  have hbody : ∀ body, (ackPackage fdl pid (.resp (respSection pid code st recs))).Body env none body → body = c := by
    intro body hb
    obtain ⟨x, e1, ⟨_, rfl⟩ | ⟨_, k, hk, _⟩⟩ := hb
    · have e1' : (respSection pid code st recs).encode env = .ok body := e1
      rw [ec] at e1'; cases e1'; rfl
    · cases hk
  have hl : 3 ≤ c.length ∧ c.length ≤ 10 + 6 * recs.length := by rw [lc]; split <;> omega
  have hh : (ackPackage fdl pid (.resp (respSection pid code st recs))).encode env none =
      (((ackPackage fdl pid (.resp (respSection pid code st recs))).encode env none).1, .ok b) := Prod.ext rfl hc.symm
  have hfull : (ackPackage fdl pid (.resp (respSection pid code st recs))).fullHL = 11 := rfl
  refine ⟨C42_library_frames env none _ _ b hh rfl (.inr rfl) (fun body hb => by rw [hbody body hb, hfull]; omega), ?_⟩
  obtain ⟨body, hb', hrest⟩ := C09_layout env none _ _ b hh (.inr rfl)
  rw [hbody body hb'] at hrest
  obtain ⟨_, h1, h2, h3⟩ := hrest (by omega)
  refine ⟨?_, by rw [h1, hfull], by rw [h2, lc]⟩
  rw [h3, h1, h2, hfull, if_neg (by omega), lc]
  split <;> omega

theorem resultPacket_framed (pid : UInt16) : WellFramed (resultPacket pid) := by
  obtain ⟨h1, h2, h3, h4, h5, h6, h7, _⟩ := resultPacket_facts pid
  refine ⟨rfl, by omega, by omega, ?_⟩
  unfold Frame.declared
  rw [h2, h3, h7]
  rfl

/-- Each packet written in answer to a packet, whatever that is, is well framed. -/
theorem packet_writes_framed (env : Env) (now : Int) (client : UInt32) (pkt : Slice) :
    ∀ w ∈ writes (handlePacket env now client pkt).effs, WellFramed w := by
  intro w hw
  rcases packet_cases env pkt with h | ⟨p, code, e, h⟩ | ⟨p, h, hp⟩ | ⟨p, recs, h⟩
  · rw [handlePacket_panic env now client h] at hw; cases hw
  · obtain ⟨r, ⟨_, hr⟩, h2⟩ := handlePacket_rejected env now client h
    rw [h2] at hw
    simp only [writes, List.filterMap_cons, List.filterMap_nil, List.mem_singleton] at hw
    subst hw
    exact (createPtResponse_framed env _ code 0 [] (by simp) w hr).1
  · rw [handlePacket_response env now client h hp] at hw; cases hw
  · rcases hasResp_cases recs with hr | hr
    · obtain ⟨ack, ⟨_, hn, ha⟩, h2⟩ := handlePacket_app env now client h hr
      rw [h2] at hw
      simp only [writes_append, writes_saves, List.nil_append, List.mem_append] at hw
      rcases hw with hw | hw
      · simp only [writes, List.filterMap_cons, List.filterMap_nil, List.mem_singleton] at hw
        subst hw
        exact (createPtResponse_framed env _ _ _ recs hn w ha).1
      · split at hw
        · simp only [writes, List.filterMap_cons, List.filterMap_nil, List.mem_singleton] at hw
          subst hw
          exact resultPacket_framed _
        · cases hw
    · rw [C46_record_response_silent env now client pkt p recs h hr] at hw
      cases hw

theorem processAll_writes_framed (env : Env) (ce : ConnEnv) (frames : List Bytes) (i : Nat) (c : UInt32) :
    ∀ w ∈ writes (processAll env ce i c frames).effs, WellFramed w := by
  induction frames generalizing i c with
  | nil => intro w hw; cases hw
  | cons f fs ih =>
    unfold processAll
    simp only
    split
    · exact packet_writes_framed _ _ _ _
    · intro w hw
      rw [writes_append, List.mem_append] at hw
      exact hw.elim (packet_writes_framed _ _ _ _ w) (ih _ _ w)

/-- Whatever arrives on a connection, and however it ends: each piece written is one packet which starts with the version
number and is as long as its own header says. -/
theorem C62_writes_framed (env : Env) (ce : ConnEnv) (input : Bytes) (e : End) : ∀ w ∈ writes (handleConn env ce input e), WellFramed w := by
  obtain ⟨frames, tail, effs, h1, h2, h3⟩ := frames_tail e _ input (Nat.lt_succ_self _)
  have hstop : writes effs = [] := by
    unfold readPacket at h3
    simp only at h3
    split at h3
    · split at h3
      · injection h3 with h3; subst h3; rfl
      · injection h3 with h3; subst h3; rfl
      · split at h3 <;> (injection h3 with h3; subst h3; rfl)
    · split at h3
      · injection h3 with h3; subst h3; rfl
      · split at h3
        · split at h3 <;> (injection h3 with h3; subst h3; rfl)
        · cases h3
  intro w hw
  rw [h1, handleConn_eq, handleFrom_frames env ce e 0 0 frames tail h2] at hw
  split at hw
  · exact processAll_writes_framed env ce frames 0 0 w hw
  · rw [writes_append, List.mem_append, handleFrom_eq, h3] at hw
    rcases hw with hw | hw
    · exact processAll_writes_framed env ce frames 0 0 w hw
    · simp only [hstop] at hw; cases hw

/-- So a peer that cuts the stream of what is written as the receiver itself cuts its input finds exactly the pieces
written: the first is found in front, however much follows it. -/
theorem C62_stream_can_be_cut (env : Env) (ce : ConnEnv) (input : Bytes) (e : End) (pre post : List Bytes) (w : Bytes)
    (h : writes (handleConn env ce input e) = pre ++ w :: post) (more : Bytes) (e' : End) :
    readPacket ((w :: post).flatten ++ more) e' = .packet w (post.flatten ++ more) := by
  have hw : WellFramed w := C62_writes_framed env ce input e w (by rw [h]; simp)
  rw [List.flatten_cons, List.append_assoc]
  exact readPacket_framed e' hw

/-- The answer to an accepted packet with `n` records has 23 + 6 n bytes (16 if there are none). -/
theorem C62_ack_length (env : Env) (now : Int) (client : UInt32) (pkt : Slice) (p : Package) (recs : List ServiceDataRecord)
    (h : Accepts env pkt p recs) (hr : ∀ r ∈ recs, r.hasResp = false) :
    ∃ ack, (writes (handlePacket env now client pkt).effs).head? = some ack ∧
      IsResponse env ack p.packetIdentifier (acceptance p.packetIdentifier recs) ∧ ack.length = (if recs = [] then 16 else 23 + 6 * recs.length) := by
  obtain ⟨ack, ⟨h1, hn, ha⟩, h2⟩ := handlePacket_app env now client h hr
  refine ⟨ack, ?_, h1, ?_⟩
  · rw [h2]
    simp only [writes_append, writes_saves, List.nil_append]
    rfl
  · exact (createPtResponse_framed env _ _ _ recs hn ack ha).2.1

example (env : Env) (sp : Bytes) : Accepts env ⟨Ex.good, sp⟩ (Ex.pkg 91 141 48568 Ex.goodRecs) Ex.goodRecs ∧ (∀ r ∈ Ex.goodRecs, r.hasResp = false) :=
  ⟨Ex.good_accepts env sp, by decide⟩

end Egts
