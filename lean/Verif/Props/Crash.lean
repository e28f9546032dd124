import Verif.Props.Receiver

/-! # Crashing the receiver (C56) -/

namespace Egts

/-- The receiver crashes in a packet exactly when `Decode` panics on it. -/
theorem crash_packet (env : Env) (now : Int) (c : UInt32) (pkt : Slice) :
    Effect.crash ∈ (handlePacket env now c pkt).effs ↔ Package.decode env none {} pkt = .panic := by
  rcases packet_cases env pkt with h | ⟨p, code, e, h⟩ | ⟨p, h, hp⟩ | ⟨p, recs, h⟩
  · rw [handlePacket_panic env now c h]; simp [h]
  · obtain ⟨r, _, h2⟩ := handlePacket_rejected env now c h
    rw [h2, h]; simp
  · rw [handlePacket_response env now c h hp, h]; simp
  · rw [h.1]
    rcases hasResp_cases recs with hr | hr
    · obtain ⟨ack, _, h2⟩ := handlePacket_app env now c h hr
      rw [h2]
      simp
    · obtain ⟨r, subs, h1, h2, h3⟩ := handlePacket_appResp env now c h hr
      rw [h3]
      simp

theorem crash_processAll (env : Env) (ce : ConnEnv) (frames : List Bytes) (i : Nat) (c : UInt32) :
    (Effect.crash ∈ (processAll env ce i c frames).effs ↔ (processAll env ce i c frames).client = none) ∧
    ((processAll env ce i c frames).client = none ↔
      ∃ (j : Nat) (f : Bytes), frames[j]? = some f ∧ Package.decode env none {} ⟨f, ce.spare (i + j)⟩ = .panic) := by
  induction frames generalizing i c with
  | nil => simp [processAll]
  | cons f fs ih =>
    unfold processAll
    simp only
    split
    · rename_i h
      have hp := (handlePacket_client env _ c _).mp h
      refine ⟨⟨fun _ => h, fun _ => (crash_packet env _ c _).mpr hp⟩, fun _ => ⟨0, f, rfl, hp⟩, fun _ => h⟩
    · rename_i c' h
      have hp : Package.decode env none {} ⟨f, ce.spare i⟩ ≠ .panic := by
        intro hp
        rw [(handlePacket_client env (ce.clock i) c _).mpr hp] at h
        cases h
      obtain ⟨h1, h2⟩ := ih (i + 1) c'
      have hnc := (crash_packet env (ce.clock i) c _).not.mpr hp
      constructor
      · simp only [List.mem_append]
        rw [← h1]
        tauto
      · simp only
        rw [h2]
        constructor
        · rintro ⟨j, g, hg, hd⟩
          exact ⟨j + 1, g, hg, by rw [show i + (j + 1) = i + 1 + j by omega]; exact hd⟩
        · rintro ⟨j, g, hg, hd⟩
          cases j with
          | zero =>
            simp only [List.getElem?_cons_zero, Option.some.injEq] at hg
            subst hg
            exact absurd hd hp
          | succ j => exact ⟨j, g, hg, by rw [show i + 1 + j = i + (j + 1) by omega]; exact hd⟩

/-- Which streams crash the process: those that begin with frames one of which makes the decoder panic
(`C11_panics_iff` says which frames these are). -/
theorem C56_crash_iff (env : Env) (ce : ConnEnv) (input : Bytes) (e : End) :
    Effect.crash ∈ handleConn env ce input e ↔
      ∃ (frames : List Bytes) (tail : Bytes), input = frames.flatten ++ tail ∧ (∀ f ∈ frames, WellFramed f) ∧ ¬ NoPanic env ce frames := by
  have hno : ∀ frames, ¬ NoPanic env ce frames ↔ (processAll env ce 0 0 frames).client = none := by
    intro frames
    rw [(crash_processAll env ce frames 0 0).2]
    unfold NoPanic
    push Not
    simp only [Nat.zero_add]
  constructor
  · intro h
    obtain ⟨frames, tail, effs, h1, h2, h3⟩ := frames_tail e _ input (Nat.lt_succ_self _)
    refine ⟨frames, tail, h1, h2, ?_⟩
    rw [hno]
    rw [h1, handleConn_eq, handleFrom_frames env ce e 0 0 frames tail h2] at h
    cases hc : (processAll env ce 0 0 frames).client with
    | none => rfl
    | some c =>
      rw [hc] at h
      simp only [List.mem_append] at h
      rcases h with h | h
      · rw [(crash_processAll env ce frames 0 0).1, hc] at h; cases h
      · exfalso
        rw [handleFrom_eq, h3] at h
        unfold readPacket at h3
        simp only at h3 h
        split at h3
        · split at h3
          · injection h3 with h3; subst h3; cases h
          · injection h3 with h3; subst h3; simp at h
          · split at h3 <;> (injection h3 with h3; subst h3; simp at h)
        · split at h3
          · injection h3 with h3; subst h3; simp at h
          · split at h3
            · split at h3 <;> (injection h3 with h3; subst h3; simp at h)
            · cases h3
  · rintro ⟨frames, tail, rfl, h2, h3⟩
    rw [hno] at h3
    rw [handleConn_eq, handleFrom_frames env ce e 0 0 frames tail h2, h3]
    exact (crash_processAll env ce frames 0 0).1.mpr h3

/-- C56 is false: twelve bytes crash the process, if fewer than 243 bytes of spare capacity happen to follow
them (Go allocates 24 bytes in all). -/
theorem C56_false_short (env : Env) (ce : ConnEnv) (h : (ce.spare 0).length < 243) (e : End) (tail : Bytes) :
    handleConn env ce ([1, 0, 0, 0, 0, 10, 0, 5, 0, 0, 0, 0] ++ tail) e = [.crash] := by
  have hw : WellFramed [1, 0, 0, 0, 0, 10, 0, 5, 0, 0, 0, 0] := by decide
  have hd : Package.decode env none {} ⟨[1, 0, 0, 0, 0, 10, 0, 5, 0, 0, 0, 0], ce.spare 0⟩ = .panic := by
    refine (C11_panics_iff env none {} _).mpr ⟨(by decide : Frame.hcsPos [1, 0, 0, 0, 0, 10, 0, 5, 0, 0, 0, 0] < 12), .inl ?_⟩
    show ([1, 0, 0, 0, 0, 10, 0, 5, 0, 0, 0, 0] ++ ce.spare 0).length < 255
    simp
    omega
  have := C42_until_panic env ce [] [1, 0, 0, 0, 0, 10, 0, 5, 0, 0, 0, 0] tail e (by simp) (fun i f h => by simp at h) hw hd
  simpa [processAll] using this

/-- C56 is false whatever the capacity: the frame which the library itself makes of a package of 9361 empty
records crashes the process. -/
theorem C56_false (env : Env) : ∃ f, ((manyRecords 9361).encode env none).2 = .ok f ∧
    ∀ ce e tail, handleConn env ce (f ++ tail) e = [.crash] := by
  obtain ⟨n, hn⟩ : ∃ n, n = 9361 := ⟨_, rfl⟩
  rw [← hn]
  have hwf := manyRecords_wf env none n (by omega) (by omega)
  have hb := manyRecords_body env none n
  have hl : 2 ^ 16 ≤ (manyRecords n).fullHL + (manyBody n).length := by
    rw [manyBody_length]; show 2 ^ 16 ≤ 11 + _; omega
  obtain ⟨f, h1, _⟩ := C06_long_body_panics env none _ {} [] _ hwf rfl hb hl
  have hfr : WellFramed f := by
    obtain ⟨body, hb', hrest⟩ := C09_layout env none (manyRecords n) _ f (Prod.ext rfl h1) (.inl rfl)
    have hbb : body = manyBody n := by
      have a := (bodyBytes_iff env none _ body).mpr hb'
      have b := (bodyBytes_iff env none _ (manyBody n)).mpr hb
      rw [a] at b; cases b; rfl
    subst hbb
    obtain ⟨⟨head, e1, e2⟩, e3, e4, e5⟩ := hrest (by rw [manyBody_length]; omega)
    have e3' : Frame.hl f = 11 := e3
    rw [manyBody_length] at e4
    have hne : Frame.fdl f ≠ 0 := by omega
    rw [if_neg hne, e3', e4] at e5
    refine ⟨?_, by omega, by omega, ?_⟩
    · obtain ⟨fl, body', _, _, g1, g2⟩ := encode_ok env none (p := manyRecords n) (p' := ((manyRecords n).encode env none).1) (out := f) (Prod.ext rfl h1)
      rw [g2, List.append_assoc, (head_facts _ fl _).1, g1]
      rw [fillHL_eq (.inl rfl)]
      rfl
    · unfold Frame.declared
      rw [if_neg hne, e3', e4, e5, Nat.add_assoc]
  refine ⟨f, h1, fun ce e tail => ?_⟩
  have hp : Package.decode env none {} ⟨f, ce.spare 0⟩ = .panic := by
    obtain ⟨f', g1, g2⟩ := C06_long_body_panics env none _ {} (ce.spare 0) _ hwf rfl hb hl
    rw [h1] at g1; cases g1; exact g2
  have := C42_until_panic env ce [] f tail e (by simp) (fun i f h => by simp at h) hfr hp
  simpa [processAll] using this

/-- What holds: a stream of frames that state their header length correctly and with HL+FDL < 65536, followed by
anything that is not a complete frame, does not crash the process. Missing: hostile frames. -/
theorem C56_honest_partial (env : Env) (ce : ConnEnv) (frames : List Bytes) (tail : Bytes) (e : End) (hf : ∀ f ∈ frames, WellFramed f)
    (hh : ∀ f ∈ frames, Frame.Honest f)
    (ht : tail.length < 10 ∨ (10 ≤ tail.length ∧ byteAt tail 0 ≠ 1) ∨ ∃ f, WellFramed f ∧ tail <+: f ∧ tail ≠ f) :
    Effect.crash ∉ handleConn env ce (frames.flatten ++ tail) e := by
  have hn : NoPanic env ce frames := fun i f hi => C11_no_panic_partial env none {} _ (.inl (hh f (List.mem_of_getElem? hi)))
  have h0 : Effect.crash ∉ (processAll env ce 0 0 frames).effs := by
    rw [(crash_processAll env ce frames 0 0).1, (processAll_effs env ce frames hn).2]
    simp
  rcases ht with ht | ⟨h10, h1⟩ | ⟨f, hw, hp, hne⟩
  · by_cases hz : tail = []
    · subst hz
      obtain ⟨a, b, c⟩ := C42_pipelined env ce frames hf hn
      rw [List.append_nil]
      cases e
      · rw [b]; simp [h0]
      · rw [c]; simp [h0]
      · rw [a]; exact h0
    · obtain ⟨a, b, c⟩ := C43_short_tail env ce frames tail hf hn hz ht
      cases e
      · rw [a]; simp [h0]
      · rw [b]; simp [h0]
      · rw [c]; exact h0
  · rw [C43_not_egts env ce frames tail e hf hn h10 h1]; simp [h0]
  · by_cases hz : tail = []
    · subst hz
      obtain ⟨a, b, c⟩ := C42_pipelined env ce frames hf hn
      rw [List.append_nil]
      cases e
      · rw [b]; simp [h0]
      · rw [c]; simp [h0]
      · rw [a]; exact h0
    · obtain ⟨a, b, c⟩ := C43_cut_frame env ce frames f tail hf hn hw hp hz hne
      cases e
      · rw [a]; simp [h0]
      · rw [b]; simp [h0]
      · rw [c]; exact h0

example : (∀ f ∈ [Ex.good, Ex.response, Ex.good.set 30 1], WellFramed f) ∧ ∀ f ∈ [Ex.good, Ex.response, Ex.good.set 30 1], Frame.Honest f := by
  decide +kernel

end Egts
