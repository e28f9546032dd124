import Verif.Props.Receiver
import Verif.Props.Compose
import Verif.Spec.Layout

/-!
# C117: subrecords that are not implemented

EGTS_SR_ACCEL_DATA (type 20, of any length but 5) is known to the library and not implemented.
-/

namespace Egts

/-- A record as it is sent: its head, its time, and its subrecords (type and data). -/
abbrev Sent := ServiceDataRecord × Nat × List (UInt8 × Bytes)

/-- The bytes of records. -/
def sentWire (rs : List Sent) : Bytes := recordsWire (rs.map fun r => (r.1, r.2.1, subrecordsWire r.2.2))

/-- Flags are flags, lengths fit their fields. -/
def Sent.Ok (r : Sent) : Prop :=
  r.1.FlagsWF ∧ r.2.1 < 2 ^ 32 ∧ (subrecordsWire r.2.2).length < 2 ^ 16 ∧ ∀ s ∈ r.2.2, s.2.length < 2 ^ 16

/-- The record without the subrecords whose type is in no table of the protocol that the library knows. -/
def Sent.knownOnly (r : Sent) : Sent := (r.1, r.2.1, r.2.2.filter fun s => decide (s.1.toNat ∈ knownTypes))

/-- What is in a record, whatever its length. -/
def ServiceDataRecord.apart (r : ServiceDataRecord) : ServiceDataRecord := { r with recordLength := 0 }

namespace Accel

theorem known_supported (t : UInt8) (h : t.toNat ∉ knownTypes) : t ∉ supportedTypes := by
  intro h'
  simp only [supportedTypes, List.mem_cons, List.not_mem_nil, or_false] at h'
  apply h
  rcases h' with rfl | rfl | rfl | rfl | rfl | rfl | rfl | rfl | rfl | rfl | rfl | rfl | rfl | rfl | rfl | rfl <;> decide

theorem filter_subs (env : Env) (subs : List (UInt8 × Bytes)) (h : ∀ s ∈ subs, s.2.length < 2 ^ 16) (prior : List RecordData) :
    RecordDataSet.decode env prior (subrecordsWire (subs.filter fun s => decide (s.1.toNat ∈ knownTypes))) =
      RecordDataSet.decode env prior (subrecordsWire subs) := by
  induction subs generalizing prior with
  | nil => rfl
  | cons s subs ih =>
    have hs := h s List.mem_cons_self
    have ih := fun p => ih (fun x hx => h x (List.mem_cons_of_mem _ hx)) p
    have e : ∀ l, subrecordsWire (s :: l) = subrecordWire s.1 s.2 ++ subrecordsWire l := fun _ => rfl
    by_cases hk : s.1.toNat ∈ knownTypes
    · rw [List.filter_cons_of_pos (by simpa using hk), e, e, C65_subrecord_decode env s.1 s.2 hs, C65_subrecord_decode env s.1 s.2 hs]
      congr 1
      funext out
      exact ih _
    · rw [List.filter_cons_of_neg (by simpa using hk), ih, e]
      have := C19_inserted_anywhere env s.1 (known_supported s.1 hk) s.2 hs [] (by simp) prior (subrecordsWire subs)
      simpa [subrecordsWire] using this.symm

theorem wire_length_filter (subs : List (UInt8 × Bytes)) (p : UInt8 × Bytes → Bool) :
    (subrecordsWire (subs.filter p)).length ≤ (subrecordsWire subs).length := by
  induction subs with
  | nil => exact Nat.le_refl _
  | cons s subs ih =>
    have e : ∀ l, subrecordsWire (s :: l) = subrecordWire s.1 s.2 ++ subrecordsWire l := fun _ => rfl
    by_cases hk : p s = true
    · rw [List.filter_cons_of_pos hk, e, e, List.length_append, List.length_append]; omega
    · rw [List.filter_cons_of_neg hk, e, List.length_append]; omega

theorem sent_cons (r : Sent) (rs : List Sent) : sentWire (r :: rs) = r.1.wire r.2.1 (subrecordsWire r.2.2) ++ sentWire rs := rfl

theorem filter_recs (env : Env) (rs : List Sent) (h : ∀ r ∈ rs, r.Ok) (p1 p2 : List ServiceDataRecord)
    (hp : p1.map (·.apart) = p2.map (·.apart)) :
    (ServiceDataSet.decode env p1 (sentWire (rs.map (·.knownOnly)))).map (List.map (·.apart)) =
      (ServiceDataSet.decode env p2 (sentWire rs)).map (List.map (·.apart)) := by
  induction rs generalizing p1 p2 with
  | nil =>
    have e : sentWire [] = [] := rfl
    rw [List.map_nil, e, sds_decode_nil, sds_decode_nil]
    exact congrArg Except.ok hp
  | cons r rs ih =>
    obtain ⟨r, t, subs⟩ := r
    obtain ⟨h1, h2, h3, h4⟩ := h _ List.mem_cons_self
    have ih := fun p1 p2 hp => ih (fun x hx => h x (List.mem_cons_of_mem _ hx)) p1 p2 hp
    simp only at h1 h2 h3 h4
    have hk : Sent.knownOnly (r, t, subs) = (r, t, subs.filter fun s => decide (s.1.toNat ∈ knownTypes)) := rfl
    have h3' := Nat.lt_of_le_of_lt (wire_length_filter subs fun s => decide (s.1.toNat ∈ knownTypes)) h3
    have e := filter_subs env subs h4 []
    rw [List.map_cons, hk, sent_cons, sent_cons]
    simp only
    rw [C65_record_decode env r h1 t h2 _ h3, C65_record_decode env r h1 t h2 _ h3', e]
    cases RecordDataSet.decode env [] (subrecordsWire subs) with
    | error e => simp only [Except.bind, Except.map]
    | ok rds =>
      simp only [Except.bind]
      apply ih
      rw [List.map_append, List.map_append, hp, List.map_cons, List.map_cons, List.map_nil]
      simp only [ServiceDataRecord.apart]

theorem refused_alone (env : Env) (c : Bytes) (hc : c.length < 2 ^ 16) (h5 : c.length ≠ 5) :
    ∃ e, RecordDataSet.decode env [] (subrecordWire 20 c) = .error e := by
  have hs := rdStep_wire env (srRespDecode env (depthFor (subrecordWire 20 c).length)) 20 c hc []
  rw [List.append_nil] at hs
  have hn : UInt16.ofNat c.length ≠ 5 := by
    intro h
    have := congrArg UInt16.toNat h
    rw [UInt16.toNat_ofNat', Nat.mod_eq_of_lt hc] at this
    exact h5 this
  have hx : subDecode env (srRespDecode env (depthFor (subrecordWire 20 c).length)) 20 (UInt16.ofNat c.length) c = .error .accel := by
    change (if UInt16.ofNat c.length = 5 then _ else _) = _
    rw [if_neg hn]
  rw [hx] at hs
  exact ⟨_, rds_decode_error env _ _ _ _ (by simp [subrecordWire]) (Nat.le_refl _) hs⟩

theorem refused_subs (env : Env) (c : Bytes) (h5 : c.length ≠ 5) (subs : List (UInt8 × Bytes)) (h : ∀ s ∈ subs, s.2.length < 2 ^ 16)
    (hm : ((20 : UInt8), c) ∈ subs) (prior : List RecordData) : ∃ e, RecordDataSet.decode env prior (subrecordsWire subs) = .error e := by
  obtain ⟨a, b, rfl⟩ := List.append_of_mem hm
  have e : subrecordsWire (a ++ (20, c) :: b) = subrecordsWire a ++ (subrecordWire 20 c ++ subrecordsWire b) := by
    simp [subrecordsWire]
  have hc := h _ hm
  rw [e, C18_any_subrecords env a fun s hs => h s (List.mem_append_left _ hs)]
  cases RecordDataSet.decode env prior (subrecordsWire a) with
  | error e => exact ⟨e, rfl⟩
  | ok mid =>
    obtain ⟨e, he⟩ := refused_alone env c hc h5
    refine ⟨e, ?_⟩
    change RecordDataSet.decode env mid (subrecordWire 20 c ++ subrecordsWire b) = _
    rw [C65_subrecord_decode env 20 c hc, he]
    rfl

theorem refused_recs (env : Env) (rs : List Sent) (h : ∀ r ∈ rs, r.Ok) (r : Sent) (hr : r ∈ rs) (c : Bytes) (h5 : c.length ≠ 5)
    (hm : ((20 : UInt8), c) ∈ r.2.2) (prior : List ServiceDataRecord) : ∃ e, ServiceDataSet.decode env prior (sentWire rs) = .error e := by
  induction rs generalizing prior with
  | nil => cases hr
  | cons x rs ih =>
    obtain ⟨h1, h2, h3, h4⟩ := h x List.mem_cons_self
    rw [sent_cons, C65_record_decode env x.1 h1 x.2.1 h2 _ h3]
    cases hd : RecordDataSet.decode env [] (subrecordsWire x.2.2) with
    | error e => exact ⟨e, rfl⟩
    | ok rds =>
      rcases List.mem_cons.mp hr with rfl | hr
      · obtain ⟨e, he⟩ := refused_subs env c h5 r.2.2 h4 hm []
        rw [he] at hd; cases hd
      · exact ih (fun y hy => h y (List.mem_cons_of_mem _ hy)) hr _

end Accel

/-- Subrecords of unknown types make no difference to the others, in all records of a packet. -/
theorem C117_unknown (env : Env) (rs : List Sent) (h : ∀ r ∈ rs, r.Ok) :
    (ServiceDataSet.decode env [] (sentWire (rs.map (·.knownOnly)))).map (List.map (·.apart)) =
      (ServiceDataSet.decode env [] (sentWire rs)).map (List.map (·.apart)) := Accel.filter_recs env rs h [] [] rfl

example : Sent.knownOnly ({}, 0, [(25, [1, 2, 3, 4]), (99, [7]), (20, [1])]) = ({}, 0, [(25, [1, 2, 3, 4]), (20, [1])]) := rfl

/-- The claim fails for accelerometer data: an intact packet with such a subrecord anywhere is refused as a whole, with code 129.
Nothing of it is stored, no record of it is confirmed. -/
theorem C117_accel_refused (env : Env) (now : Int) (client : UInt32) (pkt : Slice) (rs : List Sent) (h : ∀ r ∈ rs, r.Ok)
    (hf : Layout.FrameOk pkt) (hp : Frame.pt pkt.data = 1) (hb : Frame.clear none pkt.data = .ok (sentWire rs))
    (r : Sent) (hr : r ∈ rs) (c : Bytes) (hm : ((20 : UInt8), c) ∈ r.2.2) (h5 : c.length ≠ 5) :
    ∃ resp, handlePacket env now client pkt = { effs := [.write resp], client := some client } ∧
      IsResponse env resp (UInt16.ofNat (Frame.pid pkt.data))
        { responsePacketID := UInt16.ofNat (Frame.pid pkt.data), processingResult := 129, sdr := none } := by
  obtain ⟨f1, f2, f3, f4, f5, f6⟩ := hf
  have hpos : 10 ≤ Frame.hcsPos pkt.data := by unfold Frame.hcsPos; split <;> omega
  obtain ⟨e, he⟩ := Accel.refused_recs env rs h r hr c h5 hm []
  have hc : (Frame.content env none pkt.data).isOk = false := by
    unfold Frame.content
    rw [hb]
    change (if Frame.pt pkt.data = 1 then ((ServiceDataSet.decode env [] (sentWire rs)).bind fun s => .ok (.sds s)) else _ : Except Err FrameData).isOk = false
    rw [if_pos hp, he]
    rfl
  refine C45_rejected env now client pkt 129 (by omega) ?_ (by decide)
  have hrest : Frame.rest pkt.data ≠ [] := by
    intro h0
    have := congrArg List.length h0
    rw [Frame.rest, List.length_drop, List.length_nil] at this
    omega
  unfold Frame.outcome
  rw [if_neg (by omega), if_neg (by omega), if_neg (by simpa using f3), if_neg hrest, if_neg (by omega), if_pos hc]

namespace Ex

/-- A position and accelerometer data in one record. -/
def accel : Bytes :=
  [1, 0, 0, 11, 0, 51, 0, 5, 0, 1, 138, 40, 0, 7, 0, 1, 5, 0, 0, 0, 2, 2, 16, 21, 0, 0, 0, 0, 0, 0, 0, 0, 0, 0, 0, 0, 0, 0, 0, 0, 0, 0, 0, 0, 0, 0, 20, 13, 0, 1, 0, 0, 0, 0, 1, 0, 1, 0, 2, 0, 3, 0, 178, 128]

/-- The position alone. -/
def noAccel : Bytes :=
  [1, 0, 0, 11, 0, 35, 0, 5, 0, 1, 246, 24, 0, 7, 0, 1, 5, 0, 0, 0, 2, 2, 16, 21, 0, 0, 0, 0, 0, 0, 0, 0, 0, 0, 0, 0, 0, 0, 0, 0, 0, 0, 0, 0, 0, 0, 11, 230]

set_option maxRecDepth 40000 in
theorem noAccel_decode (env : Env) : Package.decode env none {} ⟨noAccel, []⟩ = .ret (pkg 35 246 58891 [recO 24 7 [posSub 0]]) 0 none := by
  with_unfolding_all rfl

/-- The record that is sent. -/
def accelSent : Sent := (recO 40 7 [], 0, [(16, zeros 21), (20, [1, 0, 0, 0, 0, 1, 0, 1, 0, 2, 0, 3, 0])])

theorem accel_ok (sp : Bytes) : Layout.FrameOk ⟨accel, sp⟩ := by
  have hl : (Slice.all ⟨accel, sp⟩).length = 64 + sp.length := by simp [Slice.all, accel]; omega
  have ht : ∀ n, n ≤ 64 → (Slice.all ⟨accel, sp⟩).take n = accel.take n := fun n hn => List.take_append_of_le_length hn
  have h1 : Frame.headEnd accel = 10 := by decide
  have h2 : Frame.bodyEnd accel = 62 := by decide
  have h3 : Frame.hcsPos accel + 1 + Frame.fdl accel < accel.length := by decide
  have h4 : Frame.hl accel ≤ Frame.bodyEnd accel := by decide
  refine ⟨h3, ?_, ?_, h4, ?_, ?_⟩
  · change Frame.headEnd accel ≤ _; omega
  · change byteAt accel (Frame.hcsPos accel) = (crc8 ((Slice.all ⟨accel, sp⟩).take (Frame.headEnd accel))).toNat
    rw [h1, ht 10 (by omega)]
    decide +kernel
  · change Frame.bodyEnd accel ≤ _; omega
  · change Frame.sfrcs accel = (crc16 (((Slice.all ⟨accel, sp⟩).take (Frame.bodyEnd accel)).drop (Frame.hl accel))).toNat
    rw [h2, ht 62 (by omega)]
    decide +kernel

theorem accel_clear : Frame.clear none accel = .ok (sentWire [accelSent]) := by
  have h : Frame.body accel = sentWire [accelSent] := by decide +kernel
  rw [← h]
  rfl

theorem accelSent_ok : accelSent.Ok := by
  refine ⟨?_, by decide, by decide, by decide⟩
  simp [ServiceDataRecord.FlagsWF, IsBit, IsBits2, accelSent, recO]

end Ex

/-- A position is lost by the accelerometer data that stands beside it. -/
theorem C117_false (env : Env) : ∃ f g : Bytes, WellFramed f ∧ WellFramed g ∧ ∀ now client sp,
    saves (handlePacket env now client ⟨f, sp⟩).effs = [] ∧ (saves (handlePacket env now client ⟨g, sp⟩).effs).length = 1 := by
  refine ⟨Ex.accel, Ex.noAccel, by decide, by decide, fun now client sp => ⟨?_, ?_⟩⟩
  · obtain ⟨resp, h, _⟩ := C117_accel_refused env now client ⟨Ex.accel, sp⟩ [Ex.accelSent] (by simpa using Ex.accelSent_ok) (Ex.accel_ok sp)
      (by change Frame.pt Ex.accel = 1; decide) Ex.accel_clear _ List.mem_cons_self _ (List.mem_cons_of_mem _ List.mem_cons_self) (by decide)
    rw [h]
    rfl
  · rw [C48_saved env now client _ _ _ ⟨accept_spare env none {} (Ex.noAccel_decode env), rfl, rfl⟩]
    rfl

end Egts
