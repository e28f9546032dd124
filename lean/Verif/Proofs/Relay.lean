import Verif.Spec.Relay
import Verif.Proofs.KeptRec
import Verif.Proofs.ProtoValid
import Verif.Proofs.Saved

/-! # What is decoded can be encoded -/

namespace Egts
open Layout

/-- The altitude, if any, fits 24 bits. -/
def SubData.AltFits : SubData → Prop
  | .pos x => x.altitude.toNat < 2 ^ 24
  | _ => True

theorem bitStr2 (m n : Nat) : IsBits2 (bitStr m ++ bitStr n) := by
  rcases bitStr_isBit m with h | h <;> rcases bitStr_isBit n with h' | h' <;> rw [h, h'] <;> decide

theorem text_length (b : Bytes) (o n : Nat) : (text b o n).length = n := by
  unfold text zeros
  rw [List.length_append, List.length_take, List.length_drop, List.length_replicate]
  omega

theorem opt_bit {α : Type} {n : Nat} {v old : α} (h : bitStr n = go!"1") : opt n v old = v := if_pos ((bitStr_one n).mp h)

theorem pos_made (env : Env) (b : Bytes) (ha : (SubData.pos (PosWire.record {} b)).AltFits) : (SubData.pos (PosWire.record {} b)).WF env := by
  have hb := byteAt_lt b
  have ht : PosWire.time b = num b 0 4 := (num4 b 0).symm
  have ho : PosWire.odometer b = num b 16 3 := (num3 b 16).symm
  have hsp : PosWire.speed10 b < 16384 := Nat.mod_lt _ (by omega)
  have hd : PosWire.dirh b < 2 := by unfold PosWire.dirh; have := hb 14; omega
  have hal : PosWire.alts b < 2 := Nat.mod_lt _ (by omega)
  refine ⟨⟨bitStr_isBit _, bitStr_isBit _, bitStr_isBit _, bitStr_isBit _, bitStr_isBit _, bitStr_isBit _, bitStr_isBit _, bitStr_isBit _,
    ⟨PosWire.time b, by rw [ht]; exact num4_lt b 0, rfl⟩, ?_, ?_, ?_, ?_, fun _ => ha⟩, ?_, ?_⟩
  · show UInt8.ofNat (PosWire.dirh b) < 2
    rw [UInt8.lt_iff_toNat_lt, UInt8.toNat_ofNat']
    exact Nat.lt_of_le_of_lt (Nat.mod_le _ _) hd
  · show UInt8.ofNat (PosWire.alts b) < 2
    rw [UInt8.lt_iff_toNat_lt, UInt8.toNat_ofNat']
    exact Nat.lt_of_le_of_lt (Nat.mod_le _ _) hal
  · show UInt16.ofNat (PosWire.speed10 b / 10) ≤ 1638
    rw [UInt16.le_iff_toNat_le, UInt16.toNat_ofNat']
    refine Nat.le_trans (Nat.mod_le _ _) ?_
    show _ ≤ 1638
    omega
  · show (UInt32.ofNat (PosWire.odometer b)).toNat < _
    rw [UInt32.toNat_ofNat', ho]
    exact Nat.lt_of_le_of_lt (Nat.mod_le _ _) (num_lt b 3 16)
  · exact ⟨(decLat_range _).2.1, (decLat_range _).1⟩
  · exact ⟨(decLon_range _).2.1, (decLon_range _).1⟩

theorem pos_encodes (env : Env) (b : Bytes) : ∃ w, (SubData.pos (PosWire.record {} b)).encode env = .ok w := by
  have fl : parseFlags (bitStr (PosWire.flag b 7) ++ bitStr (PosWire.flag b 6) ++ bitStr (PosWire.flag b 5) ++ bitStr (PosWire.flag b 4) ++ bitStr (PosWire.flag b 3) ++
      bitStr (PosWire.flag b 2) ++ bitStr (PosWire.flag b 1) ++ bitStr (PosWire.flag b 0)) = .ok (UInt8.ofNat (byteAt b 12)) := by
    have : ∀ n : Fin 256, parseFlags (bitStr (n.val / 2 ^ 7 % 2) ++ bitStr (n.val / 2 ^ 6 % 2) ++ bitStr (n.val / 2 ^ 5 % 2) ++ bitStr (n.val / 2 ^ 4 % 2) ++ bitStr (n.val / 2 ^ 3 % 2) ++
      bitStr (n.val / 2 ^ 2 % 2) ++ bitStr (n.val / 2 ^ 1 % 2) ++ bitStr (n.val / 2 ^ 0 % 2)) = .ok (UInt8.ofNat n.val) := by decide +kernel
    exact this ⟨byteAt b 12, byteAt_lt b 12⟩
  show ∃ w, SrPosData.encode env (PosWire.record {} b) = .ok w
  unfold SrPosData.encode
  rw [show (PosWire.record {} b).alte = bitStr (PosWire.flag b 7) from rfl, show (PosWire.record {} b).lohs = bitStr (PosWire.flag b 6) from rfl,
    show (PosWire.record {} b).lahs = bitStr (PosWire.flag b 5) from rfl, show (PosWire.record {} b).mv = bitStr (PosWire.flag b 4) from rfl,
    show (PosWire.record {} b).bb = bitStr (PosWire.flag b 3) from rfl, show (PosWire.record {} b).cs = bitStr (PosWire.flag b 2) from rfl,
    show (PosWire.record {} b).fix = bitStr (PosWire.flag b 1) from rfl, show (PosWire.record {} b).vld = bitStr (PosWire.flag b 0) from rfl,
    fl, ok_bind, pure_eq_ok]
  exact ⟨_, rfl⟩

theorem num3_toNat (b : Bytes) (o : Nat) : (UInt32.ofNat (num b o 3)).toNat < 2 ^ 24 := by
  rw [UInt32.toNat_ofNat']
  exact Nat.lt_of_le_of_lt (Nat.mod_le _ _) (num_lt b 3 o)

theorem kind_made (env : Env) {t len : Nat} {b : Bytes} {d : SubData} (hl : b.length < 2 ^ 32) (h : IsKind t len b d) :
    (d.AltFits → d.WF env) ∧ (d.code = UInt8.ofNat t ∨ t = 20 ∧ d.code = 21) := by
  rcases h with ⟨rfl, _, _, rfl⟩ | ⟨rfl, _, _, rfl⟩ | ⟨rfl, y, hy, rfl⟩ | ⟨rfl, _, rfl⟩ | ⟨rfl, _, _, rfl⟩ | ⟨rfl, _, _, rfl⟩ | ⟨ht, _, rfl⟩ |
    ⟨rfl, _, rfl⟩ | ⟨rfl, _, rfl⟩ | ⟨rfl, y, hy, rfl⟩ | ⟨rfl, _, _, rfl⟩ | ⟨rfl, y, hy, h1, h2, h3, rfl⟩ | ⟨rfl, _, rfl⟩ | ⟨rfl, _, rfl⟩
  · exact ⟨pos_made env b, .inl rfl⟩
  · refine ⟨fun _ => ?_, .inl rfl⟩
    refine ⟨bitStr_isBit _, bitStr_isBit _, bitStr_isBit _, bitStr_isBit _, bitStr_isBit _, bitStr_isBit _, bitStr_isBit _, bitStr_isBit _, ?_, ?_, ?_, ?_, ?_⟩ <;>
      exact fun h => (congrArg List.length (opt_bit h)).trans (text_length _ _ _)
  · exact ⟨fun _ => ⟨hy.2.2.2.2.2.2.2.1, hy.2.2.2.2.2.2.2.2.1⟩, .inl rfl⟩
  · exact ⟨fun _ => trivial, .inl rfl⟩
  · exact ⟨fun _ => ⟨bitStr_isBit _, bitStr_isBit _, bitStr_isBit _, bitStr_isBit _, bitStr_isBit _⟩, .inl rfl⟩
  · exact ⟨fun _ => adSens_flags b, .inl rfl⟩
  · exact ⟨fun _ => ⟨bitStr_isBit _, bitStr_isBit _, bitStr_isBit _⟩, by rcases ht with ⟨h, _⟩ | rfl; exacts [.inr ⟨h, rfl⟩, .inl rfl]⟩
  · refine ⟨fun _ => ⟨bitStr_isBit _, bitStr2 _ _, bitStr_isBit _, ?_⟩, .inl rfl⟩
    show UInt8.ofNat (byteAt b 0 % 8) < 8
    rw [UInt8.lt_iff_toNat_lt, UInt8.toNat_ofNat']
    exact Nat.lt_of_le_of_lt (Nat.mod_le _ _) (Nat.mod_lt _ (by omega))
  · exact ⟨fun _ => num3_toNat b 1, .inl rfl⟩
  · refine ⟨fun _ => ⟨hy.1, hy.2.1, ?_⟩, .inl rfl⟩
    rcases hy.2.2 with ⟨_, h⟩ | ⟨_, _, h⟩
    · rw [h]; exact List.not_mem_nil
    · exact h
  · exact ⟨fun _ => ⟨bitStr_isBit _, bitStr_isBit _, bitStr_isBit _, bitStr_isBit _, bitStr_isBit _, bitStr_isBit _, bitStr_isBit _, bitStr_isBit _⟩, .inl rfl⟩
  · refine ⟨fun _ => ?_, .inl rfl⟩
    exact Proto.unmarshal_valid ((Proto.unmarshalRecord_iff b y).mpr ⟨hy, h1, h2, h3⟩) hl
  · exact ⟨fun _ => num3_toNat b 1, .inl rfl⟩
  · exact ⟨fun _ => trivial, .inl rfl⟩

/-- The highest bit of the course of a position is in the course. -/
def SubData.CourseOk : SubData → Prop
  | .pos x => x.directionHighestBit = 1 → 128 ≤ x.direction
  | _ => True

theorem pos_course (b : Bytes) : (SubData.pos (PosWire.record {} b)).CourseOk := by
  intro h
  have hd : PosWire.dirh b < 2 := by unfold PosWire.dirh; have := byteAt_lt b 14; omega
  have h1 : PosWire.dirh b = 1 := (u8_inj (n := 1) (by omega) (by omega)).mp h
  show 128 ≤ UInt8.ofNat (if PosWire.dirh b = 1 then 128 + byteAt b 15 % 128 else byteAt b 15)
  rw [if_pos h1, UInt8.le_iff_toNat_le, UInt8.toNat_ofNat', Nat.mod_eq_of_lt (by omega)]
  exact Nat.le_add_right _ _

/-- What holds of a decoded subrecord. -/
def RecordData.Made (env : Env) (rd : RecordData) : Prop :=
  ∃ d, rd.subrecordData = some d ∧ (d.AltFits → d.WF env) ∧ d.TypeOK rd.subrecordType ∧ d.CourseOk ∧ ∃ w, d.encode env = .ok w

theorem subrecord_made (env : Env) {t len : Nat} {b : Bytes} {d : SubData} (hl : b.length < 2 ^ 32) (h : IsSubrecord t len b d) (l : UInt16) :
    (⟨UInt8.ofNat t, l, some d⟩ : RecordData).Made env := by
  cases h with
  | plain _ _ _ _ h =>
    obtain ⟨h1, h2⟩ := kind_made env hl h
    have ht : d.TypeOK (UInt8.ofNat t) := by
      rcases h2 with h2 | ⟨rfl, h2⟩
      · exact .inl h2.symm
      · exact .inr (.inr ⟨rfl, h2⟩)
    refine ⟨d, rfl, h1, ht, ?_, ?_⟩
    · rcases h with ⟨_, _, _, rfl⟩ | h
      · exact pos_course b
      · rcases h with ⟨rfl, _, _, rfl⟩ | ⟨rfl, y, hy, rfl⟩ | ⟨rfl, _, rfl⟩ | ⟨rfl, _, _, rfl⟩ | ⟨rfl, _, _, rfl⟩ | ⟨ht, _, rfl⟩ |
          ⟨rfl, _, rfl⟩ | ⟨rfl, _, rfl⟩ | ⟨rfl, y, hy, rfl⟩ | ⟨rfl, _, _, rfl⟩ | ⟨rfl, y, hy, _, _, _, rfl⟩ | ⟨rfl, _, rfl⟩ | ⟨rfl, _, rfl⟩ <;> trivial
    by_cases ha : d.AltFits
    · obtain ⟨w, _, e, _⟩ := sub_rt env 0 d (h1 ha) _ ht
      exact ⟨w, e⟩
    · rcases h with ⟨_, _, _, rfl⟩ | h
      · exact pos_encodes env b
      · exfalso
        apply ha
        rcases h with ⟨rfl, _, _, rfl⟩ | ⟨rfl, y, hy, rfl⟩ | ⟨rfl, _, rfl⟩ | ⟨rfl, _, _, rfl⟩ | ⟨rfl, _, _, rfl⟩ | ⟨ht, _, rfl⟩ |
          ⟨rfl, _, rfl⟩ | ⟨rfl, _, rfl⟩ | ⟨rfl, y, hy, rfl⟩ | ⟨rfl, _, _, rfl⟩ | ⟨rfl, y, hy, _, _, _, rfl⟩ | ⟨rfl, _, rfl⟩ | ⟨rfl, _, rfl⟩ <;> trivial
  | response => exact ⟨_, rfl, fun _ => trivial, .inl rfl, trivial, _, rfl⟩

theorem subs_made (env : Env) : ∀ {b rds}, IsSubrecords b rds → ∀ rd ∈ rds, rd.Made env
  | _, _, .nil => fun _ h => absurd h List.not_mem_nil
  | _, _, .known b d rds _ hd hr => fun rd h => by
    rcases List.mem_cons.mp h with rfl | h
    · refine subrecord_made env ?_ hd _
      have := num2_lt b 1
      rw [List.length_take]
      omega
    · exact subs_made env hr rd h
  | _, _, .unknown _ _ _ _ hr => subs_made env hr

/-- What holds of a decoded record. -/
def ServiceDataRecord.Made (env : Env) (r : ServiceDataRecord) : Prop :=
  IsBit r.ssod ∧ IsBit r.rsod ∧ IsBit r.grp ∧ IsBits2 r.rpp ∧ IsBit r.tmfe ∧ IsBit r.evfe ∧ IsBit r.obfe ∧
    (r.tmfe = go!"1" → WireTime r.time) ∧ ∀ rd ∈ r.recordDataSet, rd.Made env

theorem head_made (env : Env) (b : Bytes) (rds : List RecordData) (h : ∀ rd ∈ rds, rd.Made env) :
    ServiceDataRecord.Made env { ServiceDataRecord.head b with recordDataSet := rds } :=
  ⟨bitStr_isBit _, bitStr_isBit _, bitStr_isBit _, bitStr2 _ _, bitStr_isBit _, bitStr_isBit _, bitStr_isBit _,
    fun e => ⟨_, num4_lt b (5 + 4 * (bitAt b 4 0 + bitAt b 4 1)), opt_bit e⟩, h⟩

theorem records_made (env : Env) : ∀ {b rs}, IsRecords b rs → ∀ r ∈ rs, r.Made env
  | _, _, .nil => fun _ h => absurd h List.not_mem_nil
  | _, _, .bare b _ => fun r h => by
    rw [List.mem_singleton] at h
    subst h
    exact head_made env b [] (fun _ h => absurd h List.not_mem_nil)
  | _, _, .cons b rds rs _ hd hr => fun r h => by
    rcases List.mem_cons.mp h with rfl | h
    · exact head_made env b rds (subs_made env hd)
    · exact records_made env hr r h

/-! ## It is encoded -/

theorem rd_encodes {env : Env} {rd : RecordData} (h : rd.Made env) : ∃ w, rd.encode env = .ok w := by
  obtain ⟨d, hd, _, ht, _, w, hw⟩ := h
  have := typeOK_encode d _ ht
  simp only [RecordData.encode, hd]
  rw [this]
  simp only [ok_bind, hw, liftErr, pure_eq_ok]
  exact ⟨_, rfl⟩

theorem rds_encodes {env : Env} : ∀ {rds : List RecordData}, (∀ rd ∈ rds, rd.Made env) → ∃ w, RecordDataSet.encode env rds = .ok w
  | [], _ => ⟨[], rfl⟩
  | rd :: rds, h => by
    obtain ⟨w, hw⟩ := rd_encodes (h rd (by simp))
    obtain ⟨ws, hws⟩ := rds_encodes (rds := rds) fun x hx => h x (by simp [hx])
    exact ⟨w ++ ws, by simp only [RecordDataSet.encode, hw, hws, ok_bind, pure_eq_ok]⟩

theorem sdr_encodes {env : Env} {r : ServiceDataRecord} (h : r.Made env) : ∃ w, r.encode env = .ok w := by
  obtain ⟨h1, h2, h3, h4, h5, h6, h7, _, h9⟩ := h
  obtain ⟨w, hw⟩ := rds_encodes h9
  obtain ⟨b7, e7⟩ := isBit_iff.mp h1
  obtain ⟨b6, e6⟩ := isBit_iff.mp h2
  obtain ⟨b5, e5⟩ := isBit_iff.mp h3
  obtain ⟨b4, b3, e4⟩ := isBits2_iff.mp h4
  obtain ⟨b2, e2⟩ := isBit_iff.mp h5
  obtain ⟨b1, e1⟩ := isBit_iff.mp h6
  obtain ⟨b0, e0⟩ := isBit_iff.mp h7
  have hp := parseFlags_bits b7 b6 b5 b4 b3 b2 b1 b0
  simp only [ServiceDataRecord.encode, hw, ok_bind, e7, e6, e5, e4, e2, e1, e0, List.append_assoc, hp, liftErr, pure_eq_ok]
  exact ⟨_, rfl⟩

theorem sds_encodes {env : Env} : ∀ {rs : List ServiceDataRecord}, (∀ r ∈ rs, r.Made env) → ∃ w, ServiceDataSet.encode env rs = .ok w
  | [], _ => ⟨[], rfl⟩
  | r :: rs, h => by
    obtain ⟨w, hw⟩ := sdr_encodes (h r (by simp))
    obtain ⟨ws, hws⟩ := sds_encodes (rs := rs) fun x hx => h x (by simp [hx])
    exact ⟨w ++ ws, by simp only [ServiceDataSet.encode, hw, hws, ok_bind, pure_eq_ok]⟩

/-- The records in the content of a frame. -/
def FrameData.records : FrameData → List ServiceDataRecord
  | .sds s => s
  | .resp r => r.sdr.getD []

theorem content_encodes {env : Env} {d : FrameData} (h : ∀ r ∈ d.records, r.Made env) : ∃ w, d.encode env = .ok w := by
  cases d with
  | sds s => exact sds_encodes h
  | resp r =>
    show ∃ w, PtResponse.encode env r = .ok w
    unfold PtResponse.encode
    cases hs : r.sdr with
    | none => exact ⟨_, rfl⟩
    | some s =>
      obtain ⟨w, hw⟩ := sds_encodes (rs := s) fun x hx => h x (by simp [FrameData.records, hs, hx])
      simp only [hw, ok_bind, pure_eq_ok]
      exact ⟨_, rfl⟩

theorem content_made (env : Env) {key : Option SecretKey} {b : Bytes} {d : FrameData} (h : IsContent key b d) : ∀ r ∈ d.records, r.Made env := by
  obtain ⟨x, _, ⟨_, rs, hr, rfl⟩ | ⟨_, y, hy, rfl⟩⟩ := h
  · exact records_made env hr
  · rcases hy.2.2.2 with ⟨_, hs⟩ | ⟨_, rs, hr, hs⟩
    · simp [FrameData.records, hs]
    · simp only [FrameData.records, hs, Option.getD_some]
      exact records_made env hr

/-! ## Lengths -/

theorem rd_made_unsized {env : Env} {rd : RecordData} (h : rd.Made env) : rd.unsized.Made env := h

theorem sdr_made_unsized {env : Env} {r : ServiceDataRecord} (h : r.Made env) : r.unsized.Made env := by
  obtain ⟨h1, h2, h3, h4, h5, h6, h7, h8, h9⟩ := h
  refine ⟨h1, h2, h3, h4, h5, h6, h7, h8, fun rd hrd => ?_⟩
  obtain ⟨x, hx, rfl⟩ := List.mem_map.mp hrd
  exact rd_made_unsized (h9 x hx)

theorem records_unsized (d : FrameData) : d.unsized.records = d.records.map ServiceDataRecord.unsized := by
  cases d with
  | sds s => rfl
  | resp r => simp only [FrameData.unsized, FrameData.records]; cases r.sdr <;> rfl

theorem content_made_unsized {env : Env} {d : FrameData} (h : ∀ r ∈ d.records, r.Made env) : ∀ r ∈ d.unsized.records, r.Made env := by
  rw [records_unsized]
  intro r hr
  obtain ⟨x, hx, rfl⟩ := List.mem_map.mp hr
  exact sdr_made_unsized (h x hx)

theorem rds_fit {env : Env} : ∀ {rds : List RecordData} {b : Bytes}, RecordDataSet.encode env rds = .ok b →
    ∀ rd ∈ rds, ∀ d, rd.subrecordData = some d → ∀ w, d.encode env = .ok w → w.length ≤ b.length
  | [], _, _, rd, h, _, _, _, _ => absurd h List.not_mem_nil
  | x :: rds, b, h, rd, hrd, d, hd, w, hw => by
    obtain ⟨b1, h1, h⟩ := bind_eq_ok.mp h
    obtain ⟨b2, h2, h⟩ := bind_eq_ok.mp h
    cases h
    rw [List.length_append]
    rcases List.mem_cons.mp hrd with rfl | hrd
    · unfold RecordData.encode at h1
      obtain ⟨t, _, h1⟩ := bind_eq_ok.mp h1
      rw [hd] at h1
      simp only [hw, liftErr, ok_bind, pure_eq_ok, Except.ok.injEq] at h1
      subst h1
      simp only [List.length_append]
      omega
    · have := rds_fit h2 rd hrd d hd w hw
      omega

theorem sds_fit {env : Env} : ∀ {rs : List ServiceDataRecord} {b : Bytes}, ServiceDataSet.encode env rs = .ok b →
    ∀ r ∈ rs, ∀ w, RecordDataSet.encode env r.recordDataSet = .ok w → w.length ≤ b.length
  | [], _, _, rd, h, _, _ => absurd h List.not_mem_nil
  | x :: rs, b, h, r, hr, w, hw => by
    obtain ⟨b1, h1, h⟩ := bind_eq_ok.mp h
    obtain ⟨b2, h2, h⟩ := bind_eq_ok.mp h
    cases h
    rw [List.length_append]
    rcases List.mem_cons.mp hr with rfl | hr
    · unfold ServiceDataRecord.encode at h1
      rw [hw, ok_bind] at h1
      obtain ⟨t, _, h1⟩ := bind_eq_ok.mp h1
      cases h1
      simp only [List.length_append]
      omega
    · have := sds_fit h2 r hr w hw
      omega

theorem content_fit {env : Env} {d : FrameData} {b : Bytes} (h : d.encode env = .ok b) :
    ∀ r ∈ d.records, ∀ w, RecordDataSet.encode env r.recordDataSet = .ok w → w.length ≤ b.length := by
  cases d with
  | sds s => exact sds_fit h
  | resp r =>
    change PtResponse.encode env r = .ok b at h
    unfold PtResponse.encode at h
    cases hs : r.sdr with
    | none => intro r hr; simp [FrameData.records, hs] at hr
    | some s =>
      rw [hs] at h
      simp only at h
      obtain ⟨x, hx, h⟩ := bind_eq_ok.mp h
      cases h
      intro y hy w hw
      simp only [FrameData.records, hs, Option.getD_some] at hy
      have := sds_fit hx y hy w hw
      simp only [List.length_append]
      omega

theorem sdr_unsized_wf {env : Env} {r : ServiceDataRecord} (h : r.Made env)
    (ha : ∀ rd ∈ r.recordDataSet, ∀ d, rd.subrecordData = some d → d.AltFits)
    (hf : ∀ w, RecordDataSet.encode env r.unsized.recordDataSet = .ok w → w.length < 2 ^ 16) : r.unsized.WF env := by
  have hm := sdr_made_unsized h
  obtain ⟨w, hw⟩ := rds_encodes hm.2.2.2.2.2.2.2.2
  obtain ⟨h1, h2, h3, h4, h5, h6, h7, h8, h9⟩ := h
  have hl := hf w hw
  refine ⟨h1, h2, h3, h4, h5, h6, h7, h8, fun rd hrd => ?_, w, hw, hl, .inl rfl⟩
  obtain ⟨x, hx, rfl⟩ := List.mem_map.mp hrd
  obtain ⟨d, hd, hwf, ht, _, v, hv⟩ := h9 x hx
  have := rds_fit hw _ hrd d hd v hv
  exact ⟨d, v, hd, hwf (ha x hx d hd), ht, hv, by omega, .inl rfl⟩

end Egts
