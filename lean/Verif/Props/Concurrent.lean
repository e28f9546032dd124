import Verif.Proofs.Concurrent

/-! # `Encode` of one package by several goroutines at once (C102) -/

namespace Egts

section
variable (env : Env) (keys : Nat → Option SecretKey) (p : Package)

/-! ## C102 -/

/-- What is true: unless a routed package leaves its header length to `Encode`, and if the bodies are equally long, every goroutine gets the
frame (or the error) that `Encode` gives if it is called alone. -/
theorem C102_same_as_alone_partial (hp : p.headerLength ≠ 0 ∨ p.route ≠ go!"1") (hs : SameLength env keys p) (sched : List Nat) (i : Nat)
    (r : Except Fault Bytes) (h : ((Encoders.init p).run env keys p sched).pos i = .done r) : r = (p.encode env (keys i)).2 := by
  have g := good_exec env keys p hs (· = p.hlAfter) (·.HLInv p) (hlInv_step env keys p hp)
    (fun s i flags hi e => by have := hi.2 i; rw [e] at this; exact this) sched (Encoders.init p) (hlInv_init p) (fun _ => trivial) i
  rw [h] at g
  rw [← frameWith_alone]
  rcases g with ⟨_, _, rfl, g, _⟩ | ⟨_, g⟩
  · exact g
  · exact g _

/-- Under the same conditions the package is, from the moment on at which one of them has got a frame, as `Encode` alone leaves it. -/
theorem C102_package_afterwards_partial (hp : p.headerLength ≠ 0 ∨ p.route ≠ go!"1") (hs : SameLength env keys p) (sched : List Nat) (i : Nat)
    (out : Bytes) (h : ((Encoders.init p).run env keys p sched).pos i = .done (.ok out)) :
    ((Encoders.init p).run env keys p sched).package p = (p.encode env (keys i)).1 := by
  have g := good_exec env keys p hs (· = p.hlAfter) (·.HLInv p) (hlInv_step env keys p hp)
    (fun s i flags hi e => by have := hi.2 i; rw [e] at this; exact this) sched (Encoders.init p) (hlInv_init p) (fun _ => trivial) i
  have hl := (hlInv_run env keys p hp sched _ (hlInv_init p)).2 i
  rw [h] at g hl
  have hl := hl out rfl
  rcases g with ⟨x, b, rfl, g, hb, hm⟩ | ⟨⟨f, g⟩, _⟩
  · rw [encode_alone]
    unfold frameWith at g
    cases hf : parseFlags (p.prefix_ ++ p.route ++ p.encryptionAlg ++ p.compression ++ p.priority) with
    | error e => rw [hf] at g; cases g
    | ok flags =>
      simp only [hb]
      unfold Encoders.package
      rw [hl, hm]
  · cases g

/-- In every case, if the bodies are equally long: the frame that a goroutine gets differs from that of a call alone at most in the length
of the header and the checksum of the header. -/
theorem C102_differs_in_header_length (hs : SameLength env keys p) (sched : List Nat) (i : Nat)
    (r : Except Fault Bytes) (h : ((Encoders.init p).run env keys p sched).pos i = .done r) : ∃ hl, r = frameWith env (keys i) p hl := by
  have g := good_exec env keys p hs (fun _ => True) (fun _ => True) (fun _ _ _ => trivial) (fun _ _ _ _ _ => trivial) sched (Encoders.init p)
    trivial (fun _ => trivial) i
  rw [h] at g
  rcases g with ⟨hl, _, _, g, _⟩ | ⟨_, g⟩
  · exact ⟨hl, g⟩
  · exact ⟨0, g 0⟩

/-- No goroutine is held up by the others: ten steps of its own are enough, whatever the others do in between. -/
theorem C102_returns (sched : List Nat) (i : Nat) (h : 10 ≤ sched.count i) :
    ∃ r, ((Encoders.init p).run env keys p sched).pos i = .done r := by
  have hr := rank_run env keys p i sched (Encoders.init p)
  have h0 : ((Encoders.init p).pos i).rank = 10 := rfl
  cases ha : ((Encoders.init p).run env keys p sched).pos i with
  | done r => exact ⟨r, rfl⟩
  | _ => rw [ha, h0] at hr; simp only [EncAt.rank] at hr; omega

end

/-- A routed response that leaves its header length to `Encode`. -/
def routedResponse : Package :=
  { protocolVersion := 1, prefix_ := go!"00", route := go!"1", encryptionAlg := go!"00", compression := go!"0", priority := go!"11",
    packetIdentifier := 137, peerAddress := 1, recipientAddress := 2, timeToLive := 64,
    servicesFrameData := some (.resp { responsePacketID := 14357, processingResult := 0 }) }

/-- The first goroutine is interrupted before it adds 5 to the header length; the second one encodes meanwhile. -/
def interrupted : List Nat := [0, 0, 0] ++ List.replicate 10 1 ++ List.replicate 10 0

/-- Both goroutines find that there is no header length yet, fill in 11, and add 5 one after the other. -/
def bothFill : List Nat := [0, 0, 1, 1, 0, 1, 0, 0, 1, 1] ++ List.replicate 10 0 ++ List.replicate 10 1

/-- The frame of `routedResponse`. -/
def routedFrame : Bytes := [1, 0, 35, 16, 0, 3, 0, 137, 0, 0, 1, 0, 2, 0, 64, 107, 21, 56, 0, 51, 232]

/-- It with 11 as the length of the header. -/
def shortHeader : Bytes := [1, 0, 35, 11, 0, 3, 0, 137, 0, 0, 1, 0, 2, 0, 64, 127, 21, 56, 0, 51, 232]

/-- It with 21 as the length of the header. -/
def longHeader : Bytes := [1, 0, 35, 21, 0, 3, 0, 137, 0, 0, 1, 0, 2, 0, 64, 161, 21, 56, 0, 51, 232]

/-- Some environment. -/
def zeroEnv : Env := ⟨fun _ => 0⟩

theorem routed_run (env : Env) (sched : List Nat) : (Encoders.init routedResponse).run env (fun _ => none) routedResponse sched =
    (Encoders.init routedResponse).run zeroEnv (fun _ => none) routedResponse sched := run_env (fun _ => rfl) sched _

theorem routed_encode (env : Env) : (routedResponse.encode env none).2 = .ok routedFrame := by
  rw [show (routedResponse.encode env none).2 = (routedResponse.encode zeroEnv none).2 from rfl]
  decide +kernel

set_option maxRecDepth 40000 in
theorem routedFrame_decode (env : Env) : ∃ q, Package.decode env none {} ⟨routedFrame, []⟩ = .ret q 0 none := ⟨_, by with_unfolding_all rfl⟩

set_option maxRecDepth 40000 in
theorem shortHeader_decode (env : Env) : ∃ q, Package.decode env none {} ⟨shortHeader, []⟩ = .ret q 137 (some .checksum) :=
  ⟨_, by with_unfolding_all rfl⟩

set_option maxRecDepth 40000 in
theorem longHeader_decode (env : Env) : ∃ q, Package.decode env none {} ⟨longHeader, []⟩ = .ret q 137 (some .checksum) :=
  ⟨_, by with_unfolding_all rfl⟩

/-- Full statement of C102 (not provable): as `C102_same_as_alone_partial`, for all packages and keys. Two goroutines encode the same routed
package: one of them gets a frame that `Decode` refuses, with the error that stands for a damaged header. -/
theorem C102_false (env : Env) : ∃ (p : Package) (sched : List Nat) (good bad : Bytes),
    (p.encode env none).2 = .ok good ∧ (∃ q, Package.decode env none {} ⟨good, []⟩ = .ret q 0 none) ∧
    ((Encoders.init p).run env (fun _ => none) p sched).pos 0 = .done (.ok good) ∧
    ((Encoders.init p).run env (fun _ => none) p sched).pos 1 = .done (.ok bad) ∧
    ∃ q, Package.decode env none {} ⟨bad, []⟩ = .ret q 137 (some .checksum) := by
  refine ⟨routedResponse, interrupted, routedFrame, shortHeader, routed_encode env, routedFrame_decode env, ?_, ?_, shortHeader_decode env⟩
  · rw [routed_run]; decide +kernel
  · rw [routed_run]; decide +kernel

/-- And the damage can last: afterwards the package says that its header has 21 bytes, and a later call of `Encode`, alone, gives a frame
that `Decode` refuses. -/
theorem C102_false_lasting (env : Env) : ∃ (p : Package) (sched : List Nat) (good bad : Bytes),
    (p.encode env none).2 = .ok good ∧ (∃ q, Package.decode env none {} ⟨good, []⟩ = .ret q 0 none) ∧
    (∀ i, i = 0 ∨ i = 1 → ∃ r, ((Encoders.init p).run env (fun _ => none) p sched).pos i = .done r) ∧
    (((Encoders.init p).run env (fun _ => none) p sched).package p).headerLength = 21 ∧
    ((((Encoders.init p).run env (fun _ => none) p sched).package p).encode env none).2 = .ok bad ∧
    ∃ q, Package.decode env none {} ⟨bad, []⟩ = .ret q 137 (some .checksum) := by
  refine ⟨routedResponse, bothFill, routedFrame, longHeader, routed_encode env, routedFrame_decode env, ?_, ?_, ?_, longHeader_decode env⟩
  · rintro i (rfl | rfl)
    · exact C102_returns env _ _ _ _ (by decide)
    · exact C102_returns env _ _ _ _ (by decide)
  · rw [routed_run]; decide +kernel
  · rw [routed_run, show (((Encoders.init routedResponse).run zeroEnv (fun _ => none) routedResponse bothFill).package routedResponse).encode env none =
      (((Encoders.init routedResponse).run zeroEnv (fun _ => none) routedResponse bothFill).package routedResponse).encode zeroEnv none from ?_]
    · decide +kernel
    · rw [encode_alone, encode_alone]
      rfl

/-- Three goroutines fill in 11. The first reads it; the others add 5 one after the other; then the first writes. -/
def oneLate : List Nat := [0, 0, 1, 1, 2, 2, 0, 1, 2, 0, 1, 1, 2, 2] ++ List.replicate 10 0 ++ List.replicate 10 1 ++ List.replicate 10 2

/-- It need not go wrong, because `+=` reads and writes in two steps: the header length is 21 before the first goroutine writes, and what it
writes is 16, so that all three get good frames. -/
theorem C102_lost_update (env : Env) : ∃ (p : Package) (sched : List Nat) (good : Bytes), p.headerLength = 0 ∧ p.route = go!"1" ∧
    (p.encode env none).2 = .ok good ∧
    (((Encoders.init p).run env (fun _ => none) p (sched.take 14)).package p).headerLength = 21 ∧
    (((Encoders.init p).run env (fun _ => none) p (sched.take 15)).package p).headerLength = 16 ∧
    (∀ i, i = 0 ∨ i = 1 ∨ i = 2 → ((Encoders.init p).run env (fun _ => none) p sched).pos i = .done (.ok good)) ∧
    (((Encoders.init p).run env (fun _ => none) p sched).package p).headerLength = 16 := by
  refine ⟨routedResponse, oneLate, routedFrame, rfl, rfl, routed_encode env, ?_, ?_, ?_, ?_⟩
  · rw [routed_run]; decide +kernel
  · rw [routed_run]; decide +kernel
  · rintro i (rfl | rfl | rfl) <;> rw [routed_run] <;> decide +kernel
  · rw [routed_run]; decide +kernel

/-- A key whose `Encode` puts `n` zeros before the data. -/
def paddingKey (n : Nat) : SecretKey := { encode := fun b => .ok (List.replicate n 0 ++ b), decode := fun b => .ok (b.drop n) }

/-- A response to be encrypted. -/
def secretResponse : Package :=
  { protocolVersion := 1, prefix_ := go!"00", route := go!"0", encryptionAlg := go!"01", compression := go!"0", priority := go!"11",
    headerLength := 11, packetIdentifier := 137, servicesFrameData := some (.resp { responsePacketID := 14357, processingResult := 0 }) }

/-- A goroutine is interrupted between setting the length of the body and writing it; another one encrypts with another key meanwhile. -/
def lengthMixed : List Nat := List.replicate 5 0 ++ List.replicate 10 1 ++ List.replicate 10 0

/-- The condition on the lengths cannot be left out either: with keys that make bodies of different lengths of the same data, a goroutine
can get a frame that says it has four bytes of data where it has three. -/
theorem C102_false_lengths (env : Env) : ∃ (p : Package) (keys : Nat → Option SecretKey) (sched : List Nat) (head : Bytes),
    p.headerLength = 11 ∧ p.route = go!"0" ∧
    ((Encoders.init p).run env keys p sched).pos 0 = .done (.ok (head ++ [21, 56, 0, 51, 232])) ∧ head.length = 11 ∧
    head[5]? = some 4 ∧ head[6]? = some 0 := by
  refine ⟨secretResponse, fun i => some (paddingKey i), lengthMixed, [1, 0, 11, 11, 0, 4, 0, 137, 0, 0, 59], rfl, rfl, ?_, rfl, rfl, rfl⟩
  rw [run_env (env := env) (env' := zeroEnv) (fun _ => rfl)]
  decide +kernel

/-- A package as `Decode` makes them, with its header length: two goroutines, interrupted as above. -/
example (env : Env) (sched : List Nat) (i : Nat) (h : 10 ≤ sched.count i) :
    ((Encoders.init { routedResponse with headerLength := 16 }).run env (fun _ => none) { routedResponse with headerLength := 16 } sched).pos i =
      .done (.ok routedFrame) := by
  obtain ⟨r, hr⟩ := C102_returns env (fun _ => none) { routedResponse with headerLength := 16 } sched i h
  have := C102_same_as_alone_partial env (fun _ => none) { routedResponse with headerLength := 16 } (.inl (by decide))
    (sameLength_of_key env none _) sched i r hr
  rw [hr, this]
  rw [show (Package.encode env none { routedResponse with headerLength := 16 }).2 =
    (Package.encode zeroEnv none { routedResponse with headerLength := 16 }).2 from rfl]
  rw [show (Package.encode zeroEnv none { routedResponse with headerLength := 16 }).2 = .ok routedFrame from by decide +kernel]

end Egts
