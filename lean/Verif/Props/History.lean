import Verif.Spec.History
import Verif.Props.Stream
import Verif.Props.Memory
import Verif.Props.Resend

/-!
# C115: the packets before

What is answered to a packet does not depend on what was sent before it on the connection, nor what is saved of it, but for the identifier.
-/

namespace Egts

namespace History

def blankRec (s : RecState) : RecState := { s with nav := s.nav.anonymous, client := 0 }

def blankSub : SubOut → SubOut
  | .next s => .next (blankRec s)
  | .received s => .received (blankRec s)
  | .crash => .crash

def blankPkt (s : PktState) : PktState := { s with client := 0 }

def blankOut : RecOut → RecOut
  | .done effs s => .done (effs.map Effect.anonymous) (blankPkt s)
  | .received effs _ => .received (effs.map Effect.anonymous) 0
  | .crash effs => .crash (effs.map Effect.anonymous)

theorem sub_blank (env : Env) (pid : UInt16) (now : Int) (s : RecState) (sr : RecordData) :
    blankSub (subStep env pid now s sr) = blankSub (subStep env pid 0 (blankRec s) sr) := by
  unfold subStep
  cases sr.subrecordData with
  | none => rfl
  | some d =>
    cases d with
    | term d => simp only; split <;> rfl
    | auth d => simp only; split <;> rfl
    | absCntr d =>
      simp only
      split
      · rfl
      · split <;> rfl
    | _ => rfl

theorem sub_same (env : Env) (pid : UInt16) (now now' : Int) {s s' : RecState} (h : blankRec s = blankRec s') (sr : RecordData) :
    blankSub (subStep env pid now s sr) = blankSub (subStep env pid now' s' sr) := by
  rw [sub_blank env pid now s, h, ← sub_blank env pid now' s']

theorem loop_same (env : Env) (pid : UInt16) (now now' : Int) (l : List RecordData) {s s' : RecState} (h : blankRec s = blankRec s') :
    blankSub (subLoop env pid now s l) = blankSub (subLoop env pid now' s' l) := by
  induction l generalizing s s' with
  | nil => exact congrArg SubOut.next h
  | cons sr l ih =>
    have hs := sub_same env pid now now' h sr
    simp only [subLoop]
    cases e : subStep env pid now s sr <;> cases e' : subStep env pid now' s' sr <;> rw [e, e'] at hs <;>
      simp only [blankSub, SubOut.next.injEq, reduceCtorEq] at hs
    · exact ih hs
    · exact hs

def startRec (pid : UInt16) (c : UInt32) (rp : Bytes) : RecState :=
  { nav := { packetID := UInt32.ofNat pid.toNat }, isPkgSave := false, packetIDBytes := zeros 4, client := c, resultPkg := rp }

theorem rec_same (env : Env) (pid : UInt16) (now now' : Int) (l : List ServiceDataRecord) {effs effs' : List Effect} {s s' : PktState}
    (h : blankPkt s = blankPkt s') (he : effs.map Effect.anonymous = effs'.map Effect.anonymous) :
    blankOut (recLoop env pid now effs s l) = blankOut (recLoop env pid now' effs' s' l) := by
  induction l generalizing effs effs' s s' with
  | nil => simp only [recLoop, blankOut, h, he]
  | cons rec l ih =>
    obtain ⟨c, st, rs, rp⟩ := s
    obtain ⟨c', st', rs', rp'⟩ := s'
    simp only [blankPkt, PktState.mk.injEq, true_and] at h
    obtain ⟨rfl, rfl, rfl⟩ := h
    simp only [recLoop]
    have hl := loop_same env pid now now' rec.recordDataSet
      (s := startRec pid (if rec.obfe = one then rec.objectIdentifier else c) rp)
      (s' := startRec pid (if rec.obfe = one then rec.objectIdentifier else c') rp) rfl
    unfold startRec at hl
    revert hl
    generalize subLoop env pid now _ rec.recordDataSet = o
    generalize subLoop env pid now' _ rec.recordDataSet = o'
    intro hl
    cases o with
    | crash =>
      cases o' with
      | crash => exact congrArg RecOut.crash he
      | next => cases hl
      | received => cases hl
    | received a =>
      cases o' with
      | received b => simp only [blankOut, he]
      | next => cases hl
      | crash => cases hl
    | next a =>
      cases o' with
      | received b => cases hl
      | crash => cases hl
      | next b =>
        have hab : blankRec a = blankRec b := SubOut.next.inj hl
        have h1 : a.nav.anonymous = b.nav.anonymous := congrArg RecState.nav hab
        have h2 : a.isPkgSave = b.isPkgSave := by injection hab
        have h3 : a.resultPkg = b.resultPkg := by injection hab
        refine ih ?_ ?_
        · simp only [blankPkt, h3]
        · rw [h2]
          split
          · rw [List.map_append, List.map_append, he]
            congr 1
            show [Effect.save a.nav.anonymous] = [Effect.save b.nav.anonymous]
            rw [h1]
          · exact he

theorem packet_same (env : Env) (now now' : Int) (c c' : UInt32) (pkt : Slice) :
    (handlePacket env now c pkt).effs.map Effect.anonymous = (handlePacket env now' c' pkt).effs.map Effect.anonymous ∧
    ((handlePacket env now c pkt).client = none ↔ (handlePacket env now' c' pkt).client = none) := by
  unfold handlePacket
  split
  · exact ⟨rfl, Iff.rfl⟩
  · split
    · exact ⟨rfl, Iff.rfl⟩
    · exact ⟨rfl, by simp⟩
    · exact ⟨rfl, by simp⟩
  · rename_i p code _
    split
    · split
      · rename_i recs _
        have h := rec_same env p.packetIdentifier now now' recs (effs := []) (effs' := []) (s := { client := c }) (s' := { client := c' }) rfl rfl
        revert h
        generalize recLoop env p.packetIdentifier now [] { client := c } recs = o
        generalize recLoop env p.packetIdentifier now' [] { client := c' } recs = o'
        intro h
        cases o with
        | crash a =>
          cases o' with
          | crash b =>
            have := RecOut.crash.inj h
            exact ⟨by simp only [List.map_append, this], Iff.rfl⟩
          | done => cases h
          | received => cases h
        | received a x =>
          cases o' with
          | received b y => exact ⟨(RecOut.received.inj h).1, by simp⟩
          | done => cases h
          | crash => cases h
        | done a x =>
          cases o' with
          | received => cases h
          | crash => cases h
          | done b y =>
            obtain ⟨h1, h2⟩ := RecOut.done.inj h
            have e1 : x.serviceType = y.serviceType := by injection h2
            have e2 : x.responses = y.responses := by injection h2
            have e3 : x.resultPkg = y.resultPkg := by injection h2
            simp only
            rw [e1, e2, e3]
            split
            · exact ⟨by simp only [List.map_append, h1], Iff.rfl⟩
            · exact ⟨h1, by simp⟩
            · exact ⟨by simp only [List.map_append, h1], by simp⟩
      · exact ⟨rfl, Iff.rfl⟩
    · exact ⟨rfl, by simp⟩

theorem writes_anonymous (l : List Effect) : writes (l.map Effect.anonymous) = writes l := by
  unfold writes
  rw [List.filterMap_map]
  congr 1
  funext e
  cases e <;> rfl

theorem writes_flatMap {α : Type} (l : List α) (f : α → List Effect) : writes (l.flatMap f) = l.flatMap fun a => writes (f a) := by
  unfold writes
  exact List.filterMap_flatMap ..

theorem safe_spare {env : Env} {f : Bytes} (h : Safe env f) (s s' : Bytes) :
    Package.decode env none {} ⟨f, s⟩ = Package.decode env none {} ⟨f, s'⟩ := by
  rw [C77_only_the_bytes_partial env none {} f s (h []), C77_only_the_bytes_partial env none {} f s' (h [])]

theorem safe_packet {env : Env} {f : Bytes} (h : Safe env f) (now : Int) (c : UInt32) (s s' : Bytes) :
    handlePacket env now c ⟨f, s⟩ = handlePacket env now c ⟨f, s'⟩ := by
  unfold handlePacket
  rw [safe_spare h s s']

theorem safe_noPanic {env : Env} {fs : List Bytes} (h : ∀ f ∈ fs, Safe env f) (ce : ConnEnv) : NoPanic env ce fs :=
  fun _ f hf => h f (List.mem_of_getElem? hf) _

theorem alone {env : Env} {f : Bytes} (hw : WellFramed f) (hs : Safe env f) (ce : ConnEnv) :
    handleConn env ce f .blocked = (handlePacket env (ce.clock 0) 0 ⟨f, ce.spare 0⟩).effs := by
  have h := C42_each_frame env ce [f] (by simpa using hw) (safe_noPanic (by simpa using hs) ce)
  simpa [idsBefore, lastOr] using h

end History
open History

/-- One packet, received by a connection that knows its sender as `c` or as `c'`, at different times: the same is done, but for the
identifier and the time of receipt in what is saved, and the process crashes either way or not at all. -/
theorem C115_packet_partial (env : Env) (now now' : Int) (c c' : UInt32) (pkt : Slice) :
    (handlePacket env now c pkt).effs.map Effect.anonymous = (handlePacket env now' c' pkt).effs.map Effect.anonymous ∧
    ((handlePacket env now c pkt).client = none ↔ (handlePacket env now' c' pkt).client = none) := packet_same env now now' c c' pkt

/-- Many packets on one connection: what is done is, but for identifiers and times, what is done if each packet is sent on a connection of
its own, at whatever time. Missing: the identifiers, see `C115_false`. -/
theorem C115_connection_partial (env : Env) (ce : ConnEnv) (ces : Nat → ConnEnv) (frames : List Bytes) (hf : ∀ f ∈ frames, WellFramed f)
    (hs : ∀ f ∈ frames, Safe env f) :
    (handleConn env ce frames.flatten .blocked).map Effect.anonymous =
      frames.zipIdx.flatMap fun (f, i) => (handleConn env (ces i) f .blocked).map Effect.anonymous := by
  rw [C42_each_frame env ce frames hf (safe_noPanic hs ce), List.map_flatMap]
  apply List.flatMap_congr
  rintro ⟨f, i⟩ hfi
  have hm : f ∈ frames := by
    have := List.mem_zipIdx hfi
    simp only [Nat.zero_le, Nat.sub_zero, true_and] at this
    exact this.2 ▸ List.getElem_mem _
  simp only
  rw [alone (hf f hm) (hs f hm), safe_packet (hs f hm) _ _ (ce.spare i) ((ces i).spare 0)]
  exact (packet_same ..).1

/-- The answers: those to each packet by itself, in order. -/
theorem C115_answers (env : Env) (ce ce' : ConnEnv) (frames : List Bytes) (hf : ∀ f ∈ frames, WellFramed f) (hs : ∀ f ∈ frames, Safe env f) :
    writes (handleConn env ce frames.flatten .blocked) = frames.flatMap fun f => writes (handleConn env ce' f .blocked) := by
  have h := congrArg writes (C115_connection_partial env ce (fun _ => ce') frames hf hs)
  rw [writes_anonymous, writes_flatMap] at h
  rw [h]
  simp only [writes_anonymous]
  have : ∀ (l : List Bytes) (n : Nat), ((l.zipIdx n).flatMap fun (a : Bytes × Nat) => writes (handleConn env ce' a.1 .blocked)) =
      l.flatMap fun f => writes (handleConn env ce' f .blocked) := by
    intro l
    induction l with
    | nil => intro n; rfl
    | cons a l ih => intro n; simp only [List.zipIdx_cons, List.flatMap_cons, ih]
  exact this frames 0

/-- In particular a device may hang up and call again between any two packets: the answers are the same. -/
theorem C115_reconnect (env : Env) (ce ce1 ce2 : ConnEnv) (a b : List Bytes) (ha : ∀ f ∈ a, WellFramed f) (hb : ∀ f ∈ b, WellFramed f)
    (hsa : ∀ f ∈ a, Safe env f) (hsb : ∀ f ∈ b, Safe env f) :
    writes (handleConn env ce (a ++ b).flatten .blocked) =
      writes (handleConn env ce1 a.flatten .blocked) ++ writes (handleConn env ce2 b.flatten .blocked) := by
  rw [C115_answers env ce ce (a ++ b) (by simpa [or_imp, forall_and] using ⟨ha, hb⟩) (by simpa [or_imp, forall_and] using ⟨hsa, hsb⟩),
    List.flatMap_append, C115_answers env ce1 ce a ha hsa, C115_answers env ce2 ce b hb hsb]

/-- And the packets may come in any order: the same answers are given, in another order. -/
theorem C115_order (env : Env) (ce ce' : ConnEnv) (a b : List Bytes) (h : a.Perm b) (ha : ∀ f ∈ a, WellFramed f) (hs : ∀ f ∈ a, Safe env f) :
    (writes (handleConn env ce a.flatten .blocked)).Perm (writes (handleConn env ce' b.flatten .blocked)) := by
  rw [C115_answers env ce ce a ha hs, C115_answers env ce' ce b (fun f hf => ha f (h.mem_iff.mpr hf)) (fun f hf => hs f (h.mem_iff.mpr hf))]
  exact h.flatMap_right _

/-- A packet whose first record says whose it is: the identifiers do not depend on what came before either. -/
theorem C115_own_identity (env : Env) (now : Int) (c c' : UInt32) (pkt : Slice) (p : Package) (code : UInt8) (rec : ServiceDataRecord)
    (recs : List ServiceDataRecord) (hd : Package.decode env none {} pkt = .ret p code none)
    (hr : p.servicesFrameData = some (.sds (rec :: recs))) (ho : rec.obfe = go!"1") :
    (handlePacket env now c pkt).effs = (handlePacket env now c' pkt).effs := by
  unfold handlePacket
  rw [hd]
  simp only [hr]
  split
  · have ho' : rec.obfe = one := ho
    have : recLoop env p.packetIdentifier now [] { client := c } (rec :: recs) = recLoop env p.packetIdentifier now [] { client := c' } (rec :: recs) := by
      simp only [recLoop, if_pos ho']
    rw [this]
  · rfl

/-- Full statement of C115 (not provable): what is saved of a packet does not depend on the packets before. A packet that does not say whose
it is is filed under the identifier of the packet before, and under 0 if there was none. -/
theorem C115_false (env : Env) : ∃ f g : Bytes, WellFramed f ∧ WellFramed g ∧ ∀ ce, ∃ a b n m,
    saves (handleConn env ce (f ++ g) .blocked) = [a, b, n] ∧ saves (handleConn env ce g .blocked) = [m] ∧ n.client = 9 ∧ m.client = 0 ∧
    n.anonymous = m.anonymous := by
  obtain ⟨f, g, h1, h2, _, h⟩ := C99_identity_lost env
  refine ⟨f, g, h1.framed, h2, fun ce => ?_⟩
  obtain ⟨a, b, n, m, e1, e2, e3, e4, e5⟩ := h ce .blocked
  refine ⟨a, b, n, m, e1, e3, e2, e4, ?_⟩
  have := congrArg (fun r : NavRecord => { r with client := 0 }) e5
  exact this.symm

/-- A frame as `Safe` asks for: every honest one. -/
example (env : Env) : Safe env Ex.good ∧ WellFramed Ex.good :=
  ⟨fun s => C11_no_panic_partial env none {} ⟨Ex.good, s⟩ (.inl (show Frame.Honest Ex.good by decide)), by decide⟩

end Egts
