import Verif.Spec.Timed
import Verif.Props.Crash

/-! # Time (C57) -/

namespace Egts

theorem arrivedBy_eq (t : Nat) (x : Timeline) : arrivedBy t x = (x.map (·.1)).foldl max t := by
  rw [arrivedBy, List.foldl_map]

theorem arrivedBy_append (t : Nat) (x y : Timeline) : arrivedBy t (x ++ y) = arrivedBy (arrivedBy t x) y := List.foldl_append

/-- Forgetting the times. -/
def ReadOutT.erase : ReadOutT → ReadOut
  | .packet b rest _ => .packet b (rest.map (·.2))
  | .stop effs => .stop (effs.map (·.2))

theorem readPacketT_erase (ttl t : Nat) (input : Timeline) (e : End) (te : Nat) :
    (readPacketT ttl t input e te).erase = readPacket (input.map (·.2)) e := by
  unfold readPacketT readPacket
  simp only [List.length_map, List.map_eq_nil_iff]
  split
  · cases e with
    | blocked => rfl
    | error => rfl
    | eof => simp only; split <;> rfl
  · simp only [← List.map_take, ← List.map_drop, List.length_map]
    split
    · rfl
    · split
      · cases e <;> rfl
      · simp only [ReadOutT.erase, List.map_append]

theorem connLoopT_erase (env : Env) (ce : ConnEnv) (work : Nat → Nat) (ttl : Nat) (e : End) (te fuel i : Nat) (c : UInt32) (t : Nat) (input : Timeline) :
    (connLoopT env ce work ttl e te fuel i c t input).map (·.2) = connLoop env ce e fuel i c (input.map (·.2)) := by
  induction fuel generalizing i c t input with
  | zero => rfl
  | succ fuel ih =>
    simp only [connLoopT, connLoop, ← readPacketT_erase ttl t input e te]
    cases readPacketT ttl t input e te with
    | stop effs => rfl
    | packet b rest t' =>
      simp only [ReadOutT.erase]
      cases hc : (handlePacket env (ce.clock i) c ⟨b, ce.spare i⟩).client with
      | none => simp [Function.comp_def]
      | some c' => simp [Function.comp_def, ih]

/-- What happens does not depend on when the bytes arrive, how long anything takes or the time-out: only the moments do. -/
theorem C57_same_effects (env : Env) (ce : ConnEnv) (work : Nat → Nat) (ttl t : Nat) (input : Timeline) (e : End) (te : Nat) :
    (handleConnT env ce work ttl t input e te).map (·.2) = handleConn env ce input.bytes e := by
  unfold handleConnT handleConn Timeline.bytes
  rw [connLoopT_erase, List.length_map]

theorem packet_not_closing (env : Env) (now : Int) (c : UInt32) (pkt : Slice) : Effect.close ∉ (handlePacket env now c pkt).effs := by
  rcases packet_cases env pkt with h | ⟨p, code, e, h⟩ | ⟨p, h, hp⟩ | ⟨p, recs, h⟩
  · rw [handlePacket_panic env now c h]; simp
  · obtain ⟨r, _, h2⟩ := handlePacket_rejected env now c h
    rw [h2]; simp
  · rw [handlePacket_response env now c h hp]; simp
  · rcases hasResp_cases recs with hr | hr
    · obtain ⟨ack, _, h2⟩ := handlePacket_app env now c h hr
      rw [h2]
      simp
    · obtain ⟨r, subs, h1, h2, h3⟩ := handlePacket_appResp env now c h hr
      rw [h3]
      simp

theorem not_closing (env : Env) (ce : ConnEnv) (i : Nat) (c : UInt32) (frames : List Bytes) : Effect.close ∉ (processAll env ce i c frames).effs := by
  induction frames generalizing i c with
  | nil => simp [processAll]
  | cons f fs ih =>
    unfold processAll
    simp only
    split
    · exact packet_not_closing _ _ _ _
    · rw [List.mem_append]
      exact fun h => h.elim (packet_not_closing _ _ _ _) (ih _ _)

/-- C57 is false: whatever the time-out, a connection on which nothing arrives any more, and which the peer leaves open, is
never closed, at the beginning or after any number of packets. -/
theorem C57_false (env : Env) (ce : ConnEnv) (work : Nat → Nat) (ttl t : Nat) (input : Timeline) (te : Nat) (frames : List Bytes)
    (hin : input.bytes = frames.flatten) (hf : ∀ f ∈ frames, WellFramed f) :
    ∀ x ∈ handleConnT env ce work ttl t input .blocked te, x.2 ≠ .close := by
  intro x hx hc
  have h := C57_same_effects env ce work ttl t input .blocked te
  have hmem : Effect.close ∈ handleConn env ce input.bytes .blocked := by
    rw [← h, ← hc]
    exact List.mem_map_of_mem hx
  rw [hin, ← List.append_nil frames.flatten, handleConn_eq, handleFrom_frames env ce .blocked 0 0 frames [] hf] at hmem
  cases hcc : (processAll env ce 0 0 frames).client with
  | none =>
    rw [hcc] at hmem
    exact not_closing env ce 0 0 frames hmem
  | some c =>
    rw [hcc] at hmem
    simp only [List.mem_append] at hmem
    rcases hmem with hmem | hmem
    · exact not_closing env ce 0 0 frames hmem
    · rw [handleFrom_eq] at hmem
      cases hmem

/-- … nor is it when the peer falls silent in the middle of a packet. -/
theorem C57_false_in_packet (env : Env) (ce : ConnEnv) (work : Nat → Nat) (ttl t : Nat) (input : Timeline) (te : Nat) (frames : List Bytes) (f tail : Bytes)
    (hin : input.bytes = frames.flatten ++ tail) (hf : ∀ f ∈ frames, WellFramed f) (hn : NoPanic env ce frames) (hw : WellFramed f) (hp : tail <+: f)
    (h0 : tail ≠ []) (hne : tail ≠ f) : ∀ x ∈ handleConnT env ce work ttl t input .blocked te, x.2 ≠ .close := by
  intro x hx hc
  have h := C57_same_effects env ce work ttl t input .blocked te
  rw [hin, (C43_cut_frame env ce frames f tail hf hn hw hp h0 hne).2.2] at h
  refine not_closing env ce 0 0 frames ?_
  rw [← h, ← hc]
  exact List.mem_map_of_mem hx

/-- A packet and the first half of another. -/
example : ∃ (frames : List Bytes) (f tail : Bytes), (∀ f ∈ frames, WellFramed f) ∧ WellFramed f ∧ tail <+: f ∧ tail ≠ [] ∧ tail ≠ f :=
  ⟨[Ex.twoPos], Ex.good, Ex.good.take 30, by simp [Ex.framed.1], Ex.framed.2.1, List.take_prefix _ _, by decide, by decide⟩

theorem readPacketT_framed {f : Timeline} {rest : Timeline} (ttl t : Nat) (e : End) (te : Nat) (h : WellFramed f.bytes) :
    readPacketT ttl t (f ++ rest) e te = .packet f.bytes rest (arrivedBy t f) := by
  have hl : 10 ≤ f.length := by
    have := h.2.1
    simpa [Timeline.bytes] using this
  have he := readPacket_framed (t := rest.bytes) e h
  rw [show f.bytes ++ rest.bytes = (f ++ rest).map (·.2) by simp [Timeline.bytes], ← readPacketT_erase ttl t (f ++ rest) e te] at he
  unfold readPacketT headerLen at he ⊢
  simp only at he ⊢
  rw [if_neg (by simp; omega)] at he ⊢
  split at he
  · cases he
  · rename_i hh
    rw [if_neg hh]
    split at he
    · cases e <;> cases he
    · rename_i hn
      rw [if_neg hn]
      simp only [ReadOutT.erase, ReadOut.packet.injEq] at he
      obtain ⟨he1, he2⟩ := he
      simp only [ReadOutT.packet.injEq]
      have hlen := congrArg List.length he1
      simp only [Timeline.bytes, List.length_map] at hlen
      generalize bodyReadLen _ = n at *
      rw [← List.take_add, List.length_take] at hlen
      rw [List.drop_drop, ← arrivedBy_append, ← List.take_add]
      simp only [List.length_drop, List.length_append] at hn hlen
      have hnn : 10 + n = f.length := by omega
      rw [hnn]
      simp [Timeline.bytes]

/-- The timer is a delay, not a limit. When the peer has sent some packets and then closes the connection, the receiver
closes it not at once but when the time-out, counted from the moment at which the receiver began to wait for a further packet,
has passed as well. -/
theorem C57_after_eof_partial (env : Env) (ce : ConnEnv) (work : Nat → Nat) (ttl t : Nat) (frames : List Timeline) (te : Nat)
    (hf : ∀ f ∈ frames, WellFramed f.bytes) (hp : NoPanic env ce (frames.map (·.bytes))) :
    ∃ effs : List (Nat × Effect), effs.map (·.2) = (processAll env ce 0 0 (frames.map (·.bytes))).effs ∧
      handleConnT env ce work ttl t frames.flatten .eof te = effs ++
        [(max (waitingFrom work 0 t frames) te, .waitTimer), (max (waitingFrom work 0 t frames + ttl) te, .close)] := by
  have key : ∀ (frames : List Timeline) (i : Nat) (c : UInt32) (t fuel : Nat), (∀ f ∈ frames, WellFramed f.bytes) →
      (∀ j f, (frames.map (·.bytes))[j]? = some f → Package.decode env none {} ⟨f, ce.spare (i + j)⟩ ≠ .panic) → frames.flatten.length < fuel →
      ∃ effs : List (Nat × Effect), effs.map (·.2) = (processAll env ce i c (frames.map (·.bytes))).effs ∧
        connLoopT env ce work ttl .eof te fuel i c t frames.flatten = effs ++
          [(max (waitingFrom work i t frames) te, .waitTimer), (max (waitingFrom work i t frames + ttl) te, .close)] := by
    intro frames
    induction frames with
    | nil =>
      intro i c t fuel _ _ hfuel
      cases fuel with
      | zero => simp at hfuel
      | succ fuel =>
        refine ⟨[], rfl, ?_⟩
        simp only [List.flatten_nil, connLoopT, readPacketT, List.length_nil, headerLen, arrivedBy, List.foldl_nil, waitingFrom, List.nil_append,
          show (0 < 10) = True from by simp, if_true]
        rw [show max (max t te) (t + ttl) = max (t + ttl) te by omega]
    | cons f fs ih =>
      intro i c t fuel hw hn hfuel
      cases fuel with
      | zero => omega
      | succ fuel =>
        have hwf := hw f (by simp)
        simp only [List.flatten_cons, connLoopT, readPacketT_framed ttl t .eof te hwf, List.map_cons, processAll]
        have h0 := hn 0 f.bytes rfl
        rw [Nat.add_zero] at h0
        cases hc : (handlePacket env (ce.clock i) c ⟨f.bytes, ce.spare i⟩).client with
        | none => exact absurd ((handlePacket_client env (ce.clock i) c _).mp hc) h0
        | some c' =>
          have hlf : 1 ≤ f.length := by
            have := hwf.2.1
            rw [Timeline.bytes, List.length_map] at this
            omega
          obtain ⟨effs, e1, e2⟩ := ih (i + 1) c' (arrivedBy t f + work i) fuel (fun g hg => hw g (by simp [hg])) (fun j g hg => by
            have := hn (j + 1) g hg
            rwa [show i + (j + 1) = i + 1 + j by omega] at this) (by simp only [List.flatten_cons, List.length_append] at hfuel; omega)
          refine ⟨(handlePacket env (ce.clock i) c ⟨f.bytes, ce.spare i⟩).effs.map (arrivedBy t f, ·) ++ effs, ?_, ?_⟩
          · simp [Function.comp_def, e1]
          · simp only
            rw [e2, waitingFrom, ← arrivedBy_eq, List.append_assoc]
  exact key frames 0 0 t _ hf (fun j f h => by rw [Nat.zero_add]; exact hp j f h) (Nat.lt_succ_self _)

/-- The time-out matters nowhere else: unless the stream ends, in an orderly way, where a packet would begin, the
time-out has no influence on anything. -/
theorem C57_timeout_otherwise_unused (env : Env) (ce : ConnEnv) (work : Nat → Nat) (ttl ttl' t : Nat) (input : Timeline) (e : End) (te : Nat)
    (he : e ≠ .eof) : handleConnT env ce work ttl t input e te = handleConnT env ce work ttl' t input e te := by
  have hr : ∀ t input, readPacketT ttl t input e te = readPacketT ttl' t input e te := by
    intro t input
    unfold readPacketT
    cases e with
    | eof => exact absurd rfl he
    | error => rfl
    | blocked => rfl
  unfold handleConnT
  generalize input.length + 1 = fuel
  generalize 0 = i
  generalize (0 : UInt32) = c
  induction fuel generalizing i c t input with
  | zero => rfl
  | succ fuel ih =>
    simp only [connLoopT, hr, ih]

set_option maxRecDepth 8000 in
/-- A packet that arrives at 3, one byte later than the connection is accepted at 2, and takes 4 to process; the peer
closes at 5; with a time-out of 10 the connection is closed at 3 + 4 + 10. -/
example (env : Env) (ce : ConnEnv) : ∃ effs : List (Nat × Effect),
    handleConnT env ce (fun _ => 4) 10 2 (Ex.twoPos.map (3, ·)) .eof 5 = effs ++ [(7, .waitTimer), (17, .close)] := by
  have hp : NoPanic env ce [Ex.twoPos] := by
    intro i f h
    cases i with
    | zero =>
      cases h
      rw [(Ex.twoPos_accepts env _).1]
      exact fun h => by cases h
    | succ i => simp at h
  have hb : Timeline.bytes (Ex.twoPos.map (3, ·)) = Ex.twoPos := by simp [Timeline.bytes, Function.comp_def]
  obtain ⟨effs, _, h⟩ := C57_after_eof_partial env ce (fun _ => 4) 10 2 [Ex.twoPos.map (3, ·)] 5
    (by simp only [List.mem_singleton, forall_eq, hb]; exact Ex.framed.1) (by simpa [hb] using hp)
  refine ⟨effs, ?_⟩
  rw [List.flatten_singleton] at h
  rw [h]
  rfl

end Egts
