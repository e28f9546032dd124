import Verif.Proofs.History
import Verif.Proofs.ServerExamples
import Verif.Props.Packages

/-!
# The byte stream of a connection (C41–C43, C60)

`handleConnS env ce cs e` is the list of effects (saves, writes, waiting, closing, crashing) of a
connection that delivers the segments `cs` one after the other and then ends as `e` says; `handleConn` is
the same for an unsegmented stream.
-/

namespace Egts

/-! ## C41 -/

/-- The effects on a connection depend only on the concatenation of the segments. -/
theorem C41_segmentation (env : Env) (ce : ConnEnv) (e : End) (cs : List Bytes) :
    handleConnS env ce cs e = handleConn env ce cs.flatten e := connLoopS_eq env ce e _ 0 0 cs

/-- Two ways of cutting the same stream into segments have the same effects. -/
theorem C41_any_split (env : Env) (ce : ConnEnv) (e : End) (cs cs' : List Bytes) (h : cs.flatten = cs'.flatten) :
    handleConnS env ce cs e = handleConnS env ce cs' e := by
  rw [C41_segmentation, C41_segmentation, h]

/-- two packets in one segment; byte by byte, with empty segments -/
example : [Ex.good ++ Ex.twoPos].flatten = ([] :: (Ex.good ++ Ex.twoPos).map (fun b => [b])).flatten := by decide +kernel

/-- The reads are not trivial: a packet in two segments, cut inside the header. -/
example (env : Env) (ce : ConnEnv) :
    (handleConnS env ce [Ex.good.take 4, Ex.good.drop 4] .blocked).length = 4 := by
  rw [C41_segmentation]
  have h := handleFrom_frames env ce .blocked 0 0 [Ex.good] [] (by decide)
  obtain ⟨ack, _, h2⟩ := handlePacket_app env (ce.clock 0) 0 (Ex.good_accepts env (ce.spare 0)) (by decide)
  have e : [Ex.good.take 4, Ex.good.drop 4].flatten = [Ex.good].flatten ++ [] := by decide
  rw [e, handleConn_eq, h]
  simp only [processAll, h2]
  rfl

/-! ## C42 -/

/-- Frames back to back: the effects are those of processing the frames one by one, each with the client
id left by the one before (`processAll`); then comes what the end of the stream brings. -/
theorem C42_pipelined (env : Env) (ce : ConnEnv) (frames : List Bytes) (hf : ∀ f ∈ frames, WellFramed f) (hn : NoPanic env ce frames) :
    handleConn env ce frames.flatten .blocked = (processAll env ce 0 0 frames).effs ∧
    handleConn env ce frames.flatten .eof = (processAll env ce 0 0 frames).effs ++ [.waitTimer, .close] ∧
    handleConn env ce frames.flatten .error = (processAll env ce 0 0 frames).effs ++ [.close] := by
  have hc := (processAll_effs env ce frames hn).2
  have key : ∀ e, handleConn env ce frames.flatten e =
      (processAll env ce 0 0 frames).effs ++ handleFrom env ce e (0 + frames.length) (lastOr (idsBefore env ce frames frames.length) 0) [] := by
    intro e
    have h := handleFrom_frames env ce e 0 0 frames [] hf
    rw [List.append_nil, hc] at h
    exact h
  refine ⟨?_, ?_, ?_⟩
  · rw [key, handleFrom_eq]; simp [readPacket, headerLen]
  · rw [key, handleFrom_eq]; simp [readPacket, headerLen]
  · rw [key, handleFrom_eq]; simp [readPacket, headerLen]

/-- The same without recursion: frame number `i` is handled as if it came alone, with the last
identifier received in the frames before it. -/
theorem C42_each_frame (env : Env) (ce : ConnEnv) (frames : List Bytes) (hf : ∀ f ∈ frames, WellFramed f) (hn : NoPanic env ce frames) :
    handleConn env ce frames.flatten .blocked =
      frames.zipIdx.flatMap (fun (f, i) => (handlePacket env (ce.clock i) (lastOr (idsBefore env ce frames i) 0) ⟨f, ce.spare i⟩).effs) := by
  rw [(C42_pipelined env ce frames hf hn).1, (processAll_effs env ce frames hn).1]

/-- If a frame makes the decoder panic, the frames before it have been handled and nothing comes after. -/
theorem C42_until_panic (env : Env) (ce : ConnEnv) (frames : List Bytes) (f tail : Bytes) (e : End) (hf : ∀ f ∈ frames, WellFramed f)
    (hn : NoPanic env ce frames) (hw : WellFramed f) (hp : Package.decode env none {} ⟨f, ce.spare frames.length⟩ = .panic) :
    handleConn env ce (frames.flatten ++ f ++ tail) e = (processAll env ce 0 0 frames).effs ++ [.crash] := by
  have hc := (processAll_effs env ce frames hn).2
  have h := handleFrom_frames env ce e 0 0 frames (f ++ tail) hf
  rw [hc, ← List.append_assoc, ← handleConn_eq] at h
  rw [h]
  simp only [Nat.zero_add]
  rw [handleFrom_eq, readPacket_framed e hw]
  simp only [handlePacket_panic env _ _ hp]

/-- What the library encodes is framed in this sense, if lengths fit in 16 bits. -/
theorem C42_library_frames (env : Env) (key : Option SecretKey) (p p' : Package) (out : Bytes) (h : p.encode env key = (p', .ok out))
    (hv : p.protocolVersion = 1) (hhl : p.headerLength = 0 ∨ p.headerLength.toNat = p.fullHL)
    (hfit : ∀ body, p.Body env key body → p.fullHL + body.length + 2 < 2 ^ 16) : WellFramed out := by
  have h1 := C09_receiver_framing env key p p' out h hhl hfit
  obtain ⟨body, hb, hrest⟩ := C09_layout env key p p' out h hhl
  have hf := hfit body hb
  obtain ⟨⟨head, e1, e2⟩, e3, e4, _⟩ := hrest (by omega)
  have h11 : 11 ≤ p.fullHL := by unfold Package.fullHL; split <;> omega
  have hlen : 10 ≤ out.length := by rw [e2]; simp; omega
  refine (wellFramed_iff hlen).mpr ⟨?_, h1.symm⟩
  obtain ⟨fl, body', _, _, e5, e6⟩ := encode_ok env key h
  rw [e6, List.append_assoc, (head_facts p' fl _).1, e5]
  rw [fillHL_eq hhl]
  show p.protocolVersion.toNat = 1
  rw [hv]; rfl

example : ∀ f ∈ [Ex.good, Ex.response, Ex.good.set 20 1], WellFramed f := by decide

example (env : Env) (ce : ConnEnv) : NoPanic env ce [Ex.good, Ex.twoPos, Ex.good] := by
  intro i f h
  have : (f = Ex.good ∨ f = Ex.twoPos) := by
    rcases i with _ | _ | _ | i <;> simp at h <;> simp [← h]
  rcases this with rfl | rfl
  · rw [(Ex.good_accepts env _).1]; intro h; cases h
  · rw [(Ex.twoPos_accepts env _).1]; intro h; cases h

example (env : Env) : Package.decode env none {} ⟨Ex.response.set 3 0, []⟩ = .panic := by with_unfolding_all rfl

/-! ## C43 -/

/-- Where a frame should start there are ten bytes the first of which is not 1: the connection is closed and
nothing else happens, whatever follows. -/
theorem C43_not_egts (env : Env) (ce : ConnEnv) (frames : List Bytes) (tail : Bytes) (e : End) (hf : ∀ f ∈ frames, WellFramed f)
    (hn : NoPanic env ce frames) (h10 : 10 ≤ tail.length) (h1 : byteAt tail 0 ≠ 1) :
    handleConn env ce (frames.flatten ++ tail) e = (processAll env ce 0 0 frames).effs ++ [.close] := by
  have hc := (processAll_effs env ce frames hn).2
  have h := handleFrom_frames env ce e 0 0 frames tail hf
  rw [hc, ← handleConn_eq] at h
  rw [h]
  simp only
  rw [handleFrom_eq]
  unfold readPacket headerLen
  rw [if_neg (by omega), if_pos ((headD_eq h10).mpr h1)]

example : 10 ≤ (go!"GET / HTTP/1.1").length ∧ byteAt (go!"GET / HTTP/1.1") 0 ≠ 1 := by decide

/-- The stream ends inside a frame: the connection is closed, and nothing else happens for that
frame; while the stream is merely waiting, nothing happens at all. -/
theorem C43_cut_frame (env : Env) (ce : ConnEnv) (frames : List Bytes) (f tail : Bytes) (hf : ∀ f ∈ frames, WellFramed f)
    (hn : NoPanic env ce frames) (hw : WellFramed f) (hp : tail <+: f) (h0 : tail ≠ []) (hne : tail ≠ f) :
    handleConn env ce (frames.flatten ++ tail) .eof = (processAll env ce 0 0 frames).effs ++ [.close] ∧
    handleConn env ce (frames.flatten ++ tail) .error = (processAll env ce 0 0 frames).effs ++ [.close] ∧
    handleConn env ce (frames.flatten ++ tail) .blocked = (processAll env ce 0 0 frames).effs := by
  have hc := (processAll_effs env ce frames hn).2
  have key : ∀ e, readPacket tail e = .stop (if e = .blocked then [] else [.close]) := by
    intro e
    unfold readPacket headerLen
    by_cases h10 : tail.length < 10
    · rw [if_pos h10]
      cases e <;> simp [h0]
    · rw [if_neg h10]
      have h10' : 10 ≤ tail.length := by omega
      obtain ⟨t, rfl⟩ := hp
      have hb : ¬ (tail.take 10).headD 0 ≠ 1 := by
        rw [headD_eq h10']
        have := hw.1
        rw [byteAt_front _ (by omega)] at this
        exact not_not.mpr this
      simp only [hb, if_false]
      obtain ⟨_, h2⟩ := (wellFramed_iff hw.2.1).mp hw
      rw [bodyReadLen_append h10'] at h2
      have ht : t ≠ [] := by rintro rfl; exact hne (List.append_nil _).symm
      have : t.length ≠ 0 := fun h => ht (List.length_eq_zero_iff.mp h)
      rw [List.length_append] at h2
      rw [if_pos (by rw [List.length_drop]; omega)]
      cases e <;> simp
  have all : ∀ e, handleConn env ce (frames.flatten ++ tail) e = (processAll env ce 0 0 frames).effs ++ (if e = .blocked then [] else [.close]) := by
    intro e
    have h := handleFrom_frames env ce e 0 0 frames tail hf
    rw [hc, ← handleConn_eq] at h
    rw [h]
    simp only
    rw [handleFrom_eq, key e]
  exact ⟨all .eof, all .error, by rw [all .blocked]; simp⟩

example : WellFramed Ex.good ∧ Ex.good.take 30 <+: Ex.good ∧ Ex.good.take 30 ≠ [] ∧ Ex.good.take 30 ≠ Ex.good :=
  ⟨Ex.framed.2.1, List.take_prefix _ _, by decide, by decide +kernel⟩

/-- The stream ends with one to nine bytes of anything: the same. -/
theorem C43_short_tail (env : Env) (ce : ConnEnv) (frames : List Bytes) (tail : Bytes) (hf : ∀ f ∈ frames, WellFramed f)
    (hn : NoPanic env ce frames) (h0 : tail ≠ []) (h10 : tail.length < 10) :
    handleConn env ce (frames.flatten ++ tail) .eof = (processAll env ce 0 0 frames).effs ++ [.close] ∧
    handleConn env ce (frames.flatten ++ tail) .error = (processAll env ce 0 0 frames).effs ++ [.close] ∧
    handleConn env ce (frames.flatten ++ tail) .blocked = (processAll env ce 0 0 frames).effs := by
  have hc := (processAll_effs env ce frames hn).2
  have all : ∀ e, handleConn env ce (frames.flatten ++ tail) e = (processAll env ce 0 0 frames).effs ++ (if e = .blocked then [] else [.close]) := by
    intro e
    have h := handleFrom_frames env ce e 0 0 frames tail hf
    rw [hc, ← handleConn_eq] at h
    rw [h]
    simp only
    rw [handleFrom_eq]
    unfold readPacket headerLen
    rw [if_pos h10]
    cases e <;> simp [h0]
  exact ⟨all .eof, all .error, by rw [all .blocked]; simp⟩

example : (go!"HELLO") ≠ [] ∧ (go!"HELLO").length < 10 := by decide

/-- These are all the streams there are: complete frames, followed by nothing, by fewer than ten bytes, by
ten bytes that do not start a frame, or by an incomplete frame. -/
theorem C43_every_stream (input : Bytes) : ∃ (frames : List Bytes) (tail : Bytes), input = frames.flatten ++ tail ∧ (∀ f ∈ frames, WellFramed f) ∧
    (tail.length < 10 ∨ (10 ≤ tail.length ∧ byteAt tail 0 ≠ 1) ∨ ∃ f, WellFramed f ∧ tail <+: f ∧ tail ≠ f) := by
  obtain ⟨frames, tail, effs, h1, h2, h3⟩ := frames_tail .blocked _ input (Nat.lt_succ_self _)
  refine ⟨frames, tail, h1, h2, ?_⟩
  by_cases h10 : tail.length < 10
  · exact .inl h10
  · have h10' : 10 ≤ tail.length := by omega
    by_cases hb : byteAt tail 0 = 1
    · right; right
      unfold readPacket headerLen at h3
      rw [if_neg h10] at h3
      simp only [not_not.mpr hb, headD_eq h10', if_false] at h3
      split at h3
      · rename_i hlt
        rw [List.length_drop] at hlt
        refine ⟨tail ++ List.replicate (bodyReadLen (tail.take 10) - (tail.length - 10)) 0, ?_, List.prefix_append _ _, ?_⟩
        · refine (wellFramed_iff (by simp; omega)).mpr ⟨?_, ?_⟩
          · rw [byteAt_front _ (by omega)]; exact hb
          · rw [bodyReadLen_append h10', List.length_append, List.length_replicate]; omega
        · intro h
          have := congrArg List.length h
          simp at this
          omega
      · cases h3
    · exact .inr (.inl ⟨h10', hb⟩)

/-! ## C60 -/

/-- What has been done after the first `n` bytes (and no end of the stream) is the beginning of what is
done in the end. -/
theorem C60_incremental (env : Env) (ce : ConnEnv) (input : Bytes) (n : Nat) (e : End) :
    handleConn env ce (input.take n) .blocked <+: handleConn env ce input e := by
  have key : ∀ a b : Bytes, handleConn env ce a .blocked <+: handleConn env ce (a ++ b) e := by
    intro a b
    obtain ⟨frames, tail, effs, h1, h2, h3⟩ := frames_tail .blocked _ a (Nat.lt_succ_self _)
    subst h1
    rw [List.append_assoc]
    have ha := handleFrom_frames env ce .blocked 0 0 frames tail h2
    have hb := handleFrom_frames env ce e 0 0 frames (tail ++ b) h2
    rw [handleConn_eq, handleConn_eq, ha, hb]
    cases hc : (processAll env ce 0 0 frames).client with
    | none => exact List.prefix_rfl
    | some c =>
      simp only
      rw [List.prefix_append_right_inj, handleFrom_eq, h3]
      simp only
      unfold readPacket headerLen at h3
      by_cases h10 : tail.length < 10
      · rw [if_pos h10] at h3
        injection h3 with h3
        rw [← h3]; exact List.nil_prefix
      · rw [if_neg h10] at h3
        by_cases hb1 : (tail.take 10).headD 0 ≠ 1
        · simp only [if_pos hb1] at h3
          injection h3 with h3
          rw [← h3, handleFrom_eq]
          unfold readPacket headerLen
          rw [if_neg (by rw [List.length_append]; omega), List.take_append_of_le_length (by omega)]
          simp only [if_pos hb1]
          exact List.prefix_rfl
        · simp only [if_neg hb1] at h3
          split at h3
          · injection h3 with h3
            rw [← h3]; exact List.nil_prefix
          · cases h3
  have := key (input.take n) (input.drop n)
  rwa [List.take_append_drop] at this

/-- In particular the answer to a packet does not wait for anything after its last byte. -/
theorem C60_immediate (env : Env) (ce : ConnEnv) (f rest : Bytes) (e : End) (hw : WellFramed f) :
    (handlePacket env (ce.clock 0) 0 ⟨f, ce.spare 0⟩).effs = handleConn env ce f .blocked ∧
    (handlePacket env (ce.clock 0) 0 ⟨f, ce.spare 0⟩).effs <+: handleConn env ce (f ++ rest) e := by
  have h1 : handleConn env ce f .blocked = (handlePacket env (ce.clock 0) 0 ⟨f, ce.spare 0⟩).effs := by
    have h := readPacket_framed (t := []) .blocked hw
    rw [List.append_nil] at h
    rw [handleConn_eq, handleFrom_eq, h]
    simp only
    split
    · rfl
    · rw [handleFrom_eq]; simp [readPacket, headerLen]
  refine ⟨h1.symm, ?_⟩
  rw [← h1]
  have := C60_incremental env ce (f ++ rest) f.length e
  rwa [List.take_left] at this

end Egts
