import Verif.Proofs.Answers

/-!
# How much the receiver sends for what it receives (C110)

As a claim: the receiver sends no more than it receives. It is false of short packets; the bound is 53 bytes for 21.
-/

namespace Egts

/-- On every connection, whatever is received and however it ends, at most 53 bytes are sent for 21 received. -/
theorem C110_bound_partial (env : Env) (ce : ConnEnv) (input : Bytes) (e : End) :
    21 * bytesWritten (handleConn env ce input e) ≤ 53 * input.length := by
  obtain ⟨frames, tail, effs, h1, h2, h3⟩ := frames_tail e _ input (Nat.lt_succ_self _)
  have hs := stop_size h3
  have hp := processAll_size env ce 21 53 frames 0 0 (by
    intro f hf sp now c
    have hl := (h2 f hf).2.1
    rcases answer_size env now c ⟨f, sp⟩ with h | h | ⟨n, hn, ⟨h, hb⟩ | ⟨h, hb⟩⟩
    · omega
    · omega
    · have hb : 12 + 7 * n ≤ f.length := hb
      omega
    · have hb : 14 + 7 * n ≤ f.length := hb
      omega)
  rw [h1, handleConn_eq, handleFrom_frames env ce e 0 0 frames tail h2, List.length_append]
  split
  · omega
  · rw [bytesWritten_append, handleFrom_eq, h3]
    simp only [hs]
    omega

/-- No more is sent than was received if every packet has 239 bytes or more. -/
theorem C110_long_partial (env : Env) (ce : ConnEnv) (frames : List Bytes) (e : End) (h2 : ∀ f ∈ frames, WellFramed f)
    (hlong : ∀ f ∈ frames, 239 ≤ f.length) : bytesWritten (handleConn env ce frames.flatten e) ≤ frames.flatten.length := by
  have hp := processAll_size env ce 1 1 frames 0 0 (by
    intro f hf sp now c
    have hl := hlong f hf
    rcases answer_size env now c ⟨f, sp⟩ with h | h | ⟨n, hn, ⟨h, hb⟩ | ⟨h, hb⟩⟩
    · omega
    · omega
    · have hb : 12 + 7 * n ≤ f.length := hb
      omega
    · have hb : 14 + 7 * n ≤ f.length := hb
      omega)
  have hf := handleFrom_frames env ce e 0 0 frames [] h2
  rw [List.append_nil] at hf
  rw [handleConn_eq, hf]
  split
  · omega
  · have hs : bytesWritten (handleFrom env ce e (0 + frames.length) (by assumption) []) = 0 := by
      rw [handleFrom_eq]
      cases e <;> rfl
    rw [bytesWritten_append, hs]
    omega

/-- The answers to one packet, of whatever contents: none, 16 bytes, or 23 and six for each record, and after a login 24 more. A record
has at least seven bytes, and with a login the packet has two more. -/
theorem C110_answer (env : Env) (now : Int) (client : UInt32) (pkt : Slice) :
    bytesWritten (handlePacket env now client pkt).effs = 0 ∨
    bytesWritten (handlePacket env now client pkt).effs = 16 ∨
    ∃ n, 1 ≤ n ∧
      (bytesWritten (handlePacket env now client pkt).effs = 23 + 6 * n ∧ 12 + 7 * n ≤ pkt.data.length ∨
       bytesWritten (handlePacket env now client pkt).effs = 47 + 6 * n ∧ 14 + 7 * n ≤ pkt.data.length) := answer_size env now client pkt

namespace Ex

/-- A login with an empty name and password. The record declares five bytes of data, of which the last three are missing: they are read as
zeros. The header declares a length of 10, so the packet ends before the second byte of its checksum, which is zero. -/
def shortLogin : Bytes := [1, 0, 0, 10, 0, 9, 0, 7, 0, 1, 189, 5, 0, 31, 3, 0, 1, 1, 7, 2, 252]

/-- The same with an honest header, one byte longer. -/
def honestLogin : Bytes := [1, 0, 0, 11, 0, 9, 0, 7, 0, 1, 43, 5, 0, 31, 3, 0, 1, 1, 7, 2, 157, 228]

def shortRecs : List ServiceDataRecord :=
  [{ recordLength := 5, recordNumber := 799, ssod := go!"0", rsod := go!"0", grp := go!"0", rpp := go!"00", tmfe := go!"0", evfe := go!"0",
     obfe := go!"0", sourceServiceType := 1, recipientServiceType := 1,
     recordDataSet := [⟨7, 2, some (.auth { userName := [], userPassword := [], serverSequence := [] })⟩] }]

end Ex

set_option maxRecDepth 20000 in
/-- It is accepted. -/
theorem shortLogin_accepts (env : Env) (sp : Bytes) : ∃ p, Accepts env ⟨Ex.shortLogin, sp⟩ p Ex.shortRecs := by
  obtain ⟨p, h1, h2, h3⟩ : ∃ p, Package.decode env none {} ⟨Ex.shortLogin, []⟩ = .ret p 0 none ∧ p.packetType = 1 ∧
      p.servicesFrameData = some (.sds Ex.shortRecs) := ⟨_, by with_unfolding_all rfl, rfl, rfl⟩
  exact ⟨p, accept_spare env none {} h1, h2, h3⟩

/-- What is answered to the short login, by any receiver at any time. -/
theorem shortLogin_answer (env : Env) (now : Int) (c : UInt32) (sp : Bytes) :
    bytesWritten (handlePacket env now c ⟨Ex.shortLogin, sp⟩).effs = 53 ∧ (handlePacket env now c ⟨Ex.shortLogin, sp⟩).client = some c := by
  obtain ⟨p, ha⟩ := shortLogin_accepts env sp
  obtain ⟨ack, ⟨_, hn, hack⟩, h2⟩ := handlePacket_app env now c ha (by decide)
  have hl := (createPtResponse_framed env _ _ _ _ hn ack hack).2.1
  rw [h2]
  refine ⟨?_, rfl⟩
  simp only [bytesWritten_append, bytesWritten_saves, bytesWritten_write, hl]
  rfl

/-- The bound is sharp, and the claim false: as often as this packet of 21 bytes is sent, it is answered with 53. -/
theorem C110_false (env : Env) (ce : ConnEnv) (n : Nat) (e : End) :
    (List.replicate n Ex.shortLogin).flatten.length = 21 * n ∧
      bytesWritten (handleConn env ce (List.replicate n Ex.shortLogin).flatten e) = 53 * n := by
  have hw : ∀ f ∈ List.replicate n Ex.shortLogin, WellFramed f := fun f hf => by
    rw [List.eq_of_mem_replicate hf]; decide +kernel
  have hp : ∀ (i : Nat) (c : UInt32), bytesWritten (processAll env ce i c (List.replicate n Ex.shortLogin)).effs = 53 * n ∧
      (processAll env ce i c (List.replicate n Ex.shortLogin)).client = some c := by
    clear hw
    induction n with
    | zero => intro i c; exact ⟨rfl, rfl⟩
    | succ n ih =>
      intro i c
      obtain ⟨h1, h2⟩ := shortLogin_answer env (ce.clock i) c (ce.spare i)
      obtain ⟨h3, h4⟩ := ih (i + 1) c
      rw [List.replicate_succ]
      unfold processAll
      simp only [h2, bytesWritten_append, h1, h3, h4]
      exact ⟨by omega, trivial⟩
  refine ⟨?_, ?_⟩
  · clear hw hp
    induction n with
    | zero => rfl
    | succ n ih =>
      rw [List.replicate_succ, List.flatten_cons, List.length_append, ih, show Ex.shortLogin.length = 21 from rfl]
      omega
  · have hf := handleFrom_frames env ce e 0 0 _ [] hw
    rw [List.append_nil] at hf
    rw [handleConn_eq, hf, (hp 0 0).2]
    simp only [bytesWritten_append, (hp 0 0).1]
    rw [handleFrom_eq]
    cases e <;> rfl

set_option maxRecDepth 20000 in
/-- An honest header makes it 22 bytes. -/
example (env : Env) : WellFramed Ex.honestLogin ∧ Frame.Honest Ex.honestLogin ∧ Ex.honestLogin.length = 22 ∧
    ∃ p, Accepts env ⟨Ex.honestLogin, []⟩ p Ex.shortRecs :=
  ⟨by decide +kernel, by decide +kernel, rfl, _, by with_unfolding_all rfl, rfl, rfl⟩

/-- A packet that is long enough, whatever is in it. -/
example (body : Bytes) (h : body.length = 229) : WellFramed ([1, 0, 0, 11, 0, 226, 0, 7, 0, 1] ++ body) ∧
    239 ≤ ([1, 0, 0, 11, 0, 226, 0, 7, 0, 1] ++ body).length := by
  simp [WellFramed, byteAt, Frame.declared, Frame.fdl, Frame.hl, h]

end Egts
