import Verif.Spec.Server
import Verif.Model.Stream

/-! # Specification vocabulary for whole connections -/

namespace Egts

/-- Length of a frame according to its own header. -/
def Frame.declared (b : Bytes) : Nat := if Frame.fdl b = 0 then Frame.hl b else Frame.hl b + Frame.fdl b + 2

/-- A frame as the receiver delimits it: it starts with 1 and is as long as it says. (The receiver
computes the length in 16 bits and takes at least ten bytes.) -/
def WellFramed (f : Bytes) : Prop :=
  byteAt f 0 = 1 ∧ 10 ≤ f.length ∧ f.length < 10 + 65536 ∧ f.length % 65536 = Frame.declared f % 65536

instance (f : Bytes) : Decidable (WellFramed f) := by unfold WellFramed; infer_instance

/-- The effects of processing frames one after the other, starting with frame number `i` and client `c`.
Nothing but the client passes from one frame to the next. A crash ends everything. -/
def processAll (env : Env) (ce : ConnEnv) (i : Nat) (c : UInt32) : List Bytes → PktOut
  | [] => { effs := [], client := some c }
  | f :: fs =>
    let o := handlePacket env (ce.clock i) c ⟨f, ce.spare i⟩
    match o.client with
    | none => o
    | some c =>
      let o' := processAll env ce (i + 1) c fs
      { effs := o.effs ++ o'.effs, client := o'.client }

/-- None of the frames makes the decoder panic. -/
def NoPanic (env : Env) (ce : ConnEnv) (frames : List Bytes) : Prop :=
  ∀ i f, frames[i]? = some f → Package.decode env none {} ⟨f, ce.spare i⟩ ≠ .panic

/-- Identifier and records of an accepted application packet. -/
def accepted (env : Env) (pkt : Slice) : Option (UInt16 × List ServiceDataRecord) :=
  match Package.decode env none {} pkt with
  | .ret p _ none =>
    if p.packetType = 1 then
      match p.servicesFrameData with
      | some (.sds recs) => some (p.packetIdentifier, recs)
      | _ => none
    else none
  | _ => none

/-- The identifiers in a packet, up to the first record-response subrecord, where the receiver stops. -/
def packetIds (env : Env) (pkt : Slice) : List UInt32 :=
  match accepted env pkt with
  | none => []
  | some (_, recs) => (beforeResp recs).flatMap (·.ids) ++
    (match recs.find? (·.hasResp) with
     | none => []
     | some r => r.idsIn (r.recordDataSet.takeWhile (fun x => !x.isResp)))

/-- The identifiers received with the first `n` of these frames. -/
def idsBefore (env : Env) (ce : ConnEnv) (frames : List Bytes) (n : Nat) : List UInt32 :=
  (frames.take n).zipIdx.flatMap fun (f, i) => packetIds env ⟨f, ce.spare i⟩

/-- The effects on a connection from packet number `i` on, with client `c` and the bytes `input` still to come. -/
def handleFrom (env : Env) (ce : ConnEnv) (e : End) (i : Nat) (c : UInt32) (input : Bytes) : List Effect :=
  connLoop env ce e (input.length + 1) i c input

end Egts
