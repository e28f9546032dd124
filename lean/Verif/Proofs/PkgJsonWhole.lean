import Verif.Proofs.PkgJson
import Verif.Proofs.Decoded
import Verif.Proofs.Saved
import Verif.Proofs.ProtoValid

/-! # Which packages are read back unchanged, and which are decoded -/

namespace Egts
open Json Utf8

/-! ## Strings -/

theorem repaired_valid {s t : Bytes} (h : Repaired s t) : WellFormed t := by
  induction h with
  | nil => exact wellFormed_nil
  | char hn _ ih => exact wellFormed_append (wellFormed_enc hn) ih
  | bad _ _ ih => exact wellFormed_append (wellFormed_enc (by decide)) ih

theorem fix_iff {fix : Bytes → Bytes} (h : ∀ s, Repaired s (fix s)) (s : Bytes) : fix s = s ↔ WellFormed s :=
  ⟨fun e => e ▸ repaired_valid (h s), fun hw => repaired_wellFormed (h s) hw⟩

/-- How a string is repaired is determined. -/
theorem repaired_unique {s t u : Bytes} (h1 : Repaired s t) (h2 : Repaired s u) : t = u := by
  have hne : ∀ n, enc n ≠ [] := by
    intro n
    unfold enc
    repeat' split
    all_goals simp
  induction h1 generalizing u with
  | nil =>
    generalize he : ([] : Bytes) = x at h2
    cases h2 with
    | nil => rfl
    | @char m s' t' hm h => exact absurd (List.append_eq_nil_iff.mp he.symm).1 (hne m)
    | bad => cases he
  | @char n s t hn _ ih =>
    generalize he : enc n ++ s = x at h2
    cases h2 with
    | nil => exact absurd (List.append_eq_nil_iff.mp he).1 (hne n)
    | @char m s' t' hm h =>
      obtain ⟨rfl, rfl⟩ := enc_cancel hn hm he
      rw [ih h]
    | @bad c s' t' hb _ => exact absurd ⟨s, he⟩ (hb n hn)
  | @bad c s t hb _ ih =>
    generalize he : c :: s = x at h2
    cases h2 with
    | nil => cases he
    | @char m s' t' hm h => exact absurd ⟨s', he.symm⟩ (hb m hm)
    | @bad c' s' t' hb' h =>
      injection he with h1 h2
      subst h2
      rw [ih h]

theorem SrPosData.mapStrings_iff (f : Bytes → Bytes) (d : SrPosData) : d.mapStrings f = d ↔ ∀ s ∈ d.strings, f s = s := by
  cases d
  simp [SrPosData.mapStrings, SrPosData.strings]

theorem SrTermIdentity.mapStrings_iff (f : Bytes → Bytes) (d : SrTermIdentity) : d.mapStrings f = d ↔ ∀ s ∈ d.strings, f s = s := by
  cases d
  simp [SrTermIdentity.mapStrings, SrTermIdentity.strings]

theorem SrModuleData.mapStrings_iff (f : Bytes → Bytes) (d : SrModuleData) : d.mapStrings f = d ↔ ∀ s ∈ d.strings, f s = s := by
  cases d
  simp [SrModuleData.mapStrings, SrModuleData.strings]

theorem SrExtPosData.mapStrings_iff (f : Bytes → Bytes) (d : SrExtPosData) : d.mapStrings f = d ↔ ∀ s ∈ d.strings, f s = s := by
  cases d
  simp [SrExtPosData.mapStrings, SrExtPosData.strings]

theorem SrAdSensorsData.mapStrings_iff (f : Bytes → Bytes) (d : SrAdSensorsData) : d.mapStrings f = d ↔ ∀ s ∈ d.strings, f s = s := by
  cases d
  simp [SrAdSensorsData.mapStrings, SrAdSensorsData.strings]

theorem SrStateData.mapStrings_iff (f : Bytes → Bytes) (d : SrStateData) : d.mapStrings f = d ↔ ∀ s ∈ d.strings, f s = s := by
  cases d
  simp [SrStateData.mapStrings, SrStateData.strings]

theorem SrLiquidLevelSensor.mapStrings_iff (f : Bytes → Bytes) (d : SrLiquidLevelSensor) : d.mapStrings f = d ↔ ∀ s ∈ d.strings, f s = s := by
  cases d
  simp [SrLiquidLevelSensor.mapStrings, SrLiquidLevelSensor.strings]

theorem SrAuthInfo.mapStrings_iff (f : Bytes → Bytes) (d : SrAuthInfo) : d.mapStrings f = d ↔ ∀ s ∈ d.strings, f s = s := by
  cases d
  simp [SrAuthInfo.mapStrings, SrAuthInfo.strings]

theorem SrCountersData.mapStrings_iff (f : Bytes → Bytes) (d : SrCountersData) : d.mapStrings f = d ↔ ∀ s ∈ d.strings, f s = s := by
  cases d
  simp [SrCountersData.mapStrings, SrCountersData.strings]

theorem SrDispatcherIdentity.mapStrings_iff (f : Bytes → Bytes) (d : SrDispatcherIdentity) : d.mapStrings f = d ↔ ∀ s ∈ d.strings, f s = s := by
  cases d
  simp [SrDispatcherIdentity.mapStrings, SrDispatcherIdentity.strings]

/-! ## EGTS+ data -/

theorem map_self {α : Type} {f : α → α} {l : List α} : l.map f = l ↔ ∀ x ∈ l, f x = x := by
  constructor
  · intro h x hx
    obtain ⟨i, hi, rfl⟩ := List.getElem_of_mem hx
    have := congrArg (·[i]?) h
    simp only [List.getElem?_map, List.getElem?_eq_getElem hi, Option.map_some, Option.some.injEq] at this
    exact this
  · exact fun h => (List.map_congr_left h).trans (List.map_id' l)

theorem mapIdx_self {α : Type} {f : Nat → α → α} {l : List α} : l.mapIdx f = l ↔ ∀ i x, l[i]? = some x → f i x = x := by
  constructor
  · intro h i x hx
    have := congrArg (·[i]?) h
    simp only [List.getElem?_mapIdx, hx, Option.map_some, Option.some.injEq] at this
    exact this
  · intro h
    apply List.ext_getElem?
    intro i
    rw [List.getElem?_mapIdx]
    cases hx : l[i]? with
    | none => rfl
    | some x => simp [h i x hx]

theorem sens_whole (number : Nat) (s : Proto.Sens) : s.shown number = s ↔ s.Whole number := by
  obtain ⟨vals, unknown⟩ := s
  unfold Proto.Sens.shown Proto.Sens.Whole
  simp only [Proto.Sens.mk.injEq, mapIdx_self]
  constructor
  · rintro ⟨h1, h2⟩
    refine ⟨h2.symm, fun hm => ?_, fun h8 => ?_⟩
    · obtain ⟨i, hi⟩ := List.mem_iff_getElem?.mp hm
      have := h1 i _ hi
      simp at this
    · have := h1 1 _ h8.2
      simp [h8.1] at this
  · rintro ⟨h1, h2, h3⟩
    refine ⟨fun i x hx => ?_, h1.symm⟩
    rw [if_neg, if_neg]
    · rintro ⟨h8, hi, rfl⟩
      have hi : i = 1 := by omega
      subst hi
      exact h3 ⟨h8, hx⟩
    · rintro rfl
      exact h2 (List.mem_of_getElem? hx)

theorem storage_whole (m : StorageRecord) : m.shown = m ↔ m.Whole := by
  obtain ⟨a, b, c, d, sens, unknown⟩ := m
  unfold StorageRecord.shown StorageRecord.Whole
  simp only [StorageRecord.mk.injEq, true_and, mapIdx_self, map_self, sens_whole]
  constructor
  · rintro ⟨h1, h2⟩; exact ⟨h2.symm, h1⟩
  · rintro ⟨h1, h2⟩; exact ⟨h2, h1.symm⟩

/-! ## Packages -/

theorem sub_self (f : Bytes → Bytes) (d : SubData) : d.shown f = d ↔ (∀ s ∈ d.strings, f s = s) ∧ ∀ m, d = .plus m → m.Whole := by
  cases d with
  | pos d => simp [SubData.shown, SubData.strings, SrPosData.mapStrings_iff]
  | term d => simp [SubData.shown, SubData.strings, SrTermIdentity.mapStrings_iff]
  | module d => simp [SubData.shown, SubData.strings, SrModuleData.mapStrings_iff]
  | extPos d => simp [SubData.shown, SubData.strings, SrExtPosData.mapStrings_iff]
  | adSens d => simp [SubData.shown, SubData.strings, SrAdSensorsData.mapStrings_iff]
  | state d => simp [SubData.shown, SubData.strings, SrStateData.mapStrings_iff]
  | liquid d => simp [SubData.shown, SubData.strings, SrLiquidLevelSensor.mapStrings_iff]
  | auth d => simp [SubData.shown, SubData.strings, SrAuthInfo.mapStrings_iff]
  | counters d => simp [SubData.shown, SubData.strings, SrCountersData.mapStrings_iff]
  | disp d => simp [SubData.shown, SubData.strings, SrDispatcherIdentity.mapStrings_iff]
  | plus m => simp [SubData.shown, SubData.strings, storage_whole]
  | _ => simp [SubData.shown, SubData.strings]

/-- Nothing of the record is lost. -/
def ServiceDataRecord.Lossless (f : Bytes → Bytes) (r : ServiceDataRecord) : Prop :=
  (∀ s ∈ [r.ssod, r.rsod, r.grp, r.rpp, r.tmfe, r.evfe, r.obfe] ++ r.recordDataSet.flatMap fun rd => match rd.subrecordData with
      | some d => d.strings
      | none => [], f s = s) ∧
    ∀ m ∈ r.recordDataSet.filterMap fun rd => match rd.subrecordData with
      | some (.plus m) => some m
      | _ => none, m.Whole

theorem rd_self (f : Bytes → Bytes) (rd : RecordData) : ({ rd with subrecordData := rd.subrecordData.map (SubData.shown f) } : RecordData) = rd ↔
    (∀ s ∈ (match rd.subrecordData with | some d => d.strings | none => []), f s = s) ∧ ∀ m, rd.subrecordData = some (.plus m) → m.Whole := by
  obtain ⟨a, b, o⟩ := rd
  cases o with
  | none => simp
  | some d => simp [sub_self]

theorem record_self (f : Bytes → Bytes) (r : ServiceDataRecord) : r.shown f = r ↔ r.Lossless f := by
  have h := map_self (f := fun rd : RecordData => ({ rd with subrecordData := rd.subrecordData.map (SubData.shown f) } : RecordData)) (l := r.recordDataSet)
  simp only [rd_self] at h
  obtain ⟨a, b, c1, c2, c3, c4, c5, c6, c7, d, e, t, g, i, rds⟩ := r
  unfold ServiceDataRecord.shown ServiceDataRecord.Lossless
  simp only [ServiceDataRecord.mk.injEq, true_and, List.forall_mem_append, List.forall_mem_cons] at h ⊢
  rw [h]
  have e2 : (∀ m ∈ rds.filterMap (fun rd => match rd.subrecordData with | some (.plus m) => some m | _ => none), m.Whole) ↔
      ∀ rd ∈ rds, ∀ m, rd.subrecordData = some (.plus m) → m.Whole := by
    constructor
    · intro hm rd hrd m he
      exact hm m (List.mem_filterMap.mpr ⟨rd, hrd, by rw [he]⟩)
    · intro hm m hf
      obtain ⟨rd, hrd, he⟩ := List.mem_filterMap.mp hf
      split at he
      · rename_i m' h'
        injection he with he
        subst he
        exact hm rd hrd _ h'
      · cases he
  have e1 : (∀ s ∈ rds.flatMap (fun rd => match rd.subrecordData with | some d => d.strings | none => []), f s = s) ↔
      ∀ rd ∈ rds, ∀ s ∈ (match rd.subrecordData with | some d => d.strings | none => []), f s = s := by
    simp only [List.mem_flatMap]
    exact ⟨fun h rd hrd s hs => h s ⟨rd, hrd, hs⟩, fun h s ⟨rd, hrd, hs⟩ => h rd hrd s hs⟩
  rw [e1, e2]
  simp only [forall_and, List.not_mem_nil, false_imp_iff, implies_true, and_true]
  tauto

theorem package_self (f : Bytes → Bytes) (p : Package) : p.shown f = p ↔ (∀ s ∈ p.strings, f s = s) ∧ ∀ m ∈ p.plus, m.Whole := by
  have key : p.shown f = p ↔ (∀ s ∈ [p.prefix_, p.route, p.encryptionAlg, p.compression, p.priority], f s = s) ∧ ∀ r ∈ p.records, r.Lossless f := by
    obtain ⟨a, b, c1, c2, c3, c4, c5, d, e, g, i, j, k, l, m, n, o, q⟩ := p
    unfold Package.shown Package.records
    simp only [Package.mk.injEq, true_and, and_true, List.forall_mem_cons, List.not_mem_nil, false_imp_iff, implies_true]
    cases o with
    | none => simp
    | some d =>
      cases d with
      | sds s =>
        simp only [Option.map_some, Option.some.injEq, FrameData.sds.injEq, map_self, record_self]
        tauto
      | resp r =>
        obtain ⟨x, y, z⟩ := r
        cases z with
        | none => simp
        | some s =>
          simp only [Option.map_some, Option.some.injEq, FrameData.resp.injEq, PtResponse.mk.injEq, true_and, map_self, record_self, Option.getD_some]
          tauto
  rw [key]
  unfold Package.strings Package.plus ServiceDataRecord.Lossless
  simp only [List.forall_mem_append, List.mem_flatMap, List.mem_filterMap, List.forall_mem_cons, List.not_mem_nil, false_imp_iff, implies_true, and_true]
  constructor
  · rintro ⟨h1, h2⟩
    refine ⟨⟨h1, ?_⟩, ?_⟩
    · rintro s ⟨r, hr, hs⟩
      rcases List.mem_append.mp hs with hs | hs
      · have := (h2 r hr).1.1
        simp only [List.mem_cons, List.not_mem_nil, or_false] at hs
        rcases hs with rfl | rfl | rfl | rfl | rfl | rfl | rfl
        exacts [this.1, this.2.1, this.2.2.1, this.2.2.2.1, this.2.2.2.2.1, this.2.2.2.2.2.1, this.2.2.2.2.2.2]
      · exact (h2 r hr).1.2 s (List.mem_flatMap.mp hs)
    · rintro m ⟨r, hr, hm⟩
      exact (h2 r hr).2 m hm
  · rintro ⟨⟨h1, h2⟩, h3⟩
    refine ⟨h1, fun r hr => ⟨⟨?_, fun s hs => h2 s ⟨r, hr, List.mem_append_right _ (List.mem_flatMap.mpr hs)⟩⟩, fun m hm => h3 m ⟨r, hr, hm⟩⟩⟩
    have hh : ∀ s ∈ [r.ssod, r.rsod, r.grp, r.rpp, r.tmfe, r.evfe, r.obfe], f s = s := fun s hs => h2 s ⟨r, hr, List.mem_append_left _ hs⟩
    simp only [List.forall_mem_cons, List.not_mem_nil, false_imp_iff, implies_true, and_true] at hh
    exact hh

/-! ## Decoded packages -/

theorem isMessage_shaped {sch : Proto.Schema} {b : Bytes} {s : Proto.Sens} (h : Proto.IsMessage sch b s) : s.Shaped sch := by
  obtain ⟨fs, hfs, rfl, hd⟩ := h
  refine ⟨hd.length, ?_⟩
  intro i f v h1 h2
  have := hd.vals i f (some v) h1 h2
  cases hlw : Proto.lastWith fs f.num f.kind.wire with
  | none => rw [hlw] at this; cases this
  | some p =>
    rw [hlw] at this
    obtain ⟨x, hx, hm⟩ := this
    cases hx
    generalize f.kind = k at hm
    cases k with
    | uint32 => obtain ⟨n, hp, rfl⟩ := hm; trivial
    | sint32 => obtain ⟨n, x, hp, hx, rfl⟩ := hm; trivial
    | bool => obtain ⟨n, hp, rfl⟩ := hm; trivial
    | fixed32 => obtain ⟨a, b, c, d, rfl, rfl⟩ := hm; trivial
    | bytes => obtain ⟨hh, d, rfl, hd, rfl⟩ := hm; trivial

theorem unmarshal_holds {b : Bytes} {m : StorageRecord} (h : Proto.unmarshal b = some m) : (SubData.plus m).Holds := by
  obtain ⟨⟨fs, hfs, rfl, hd⟩, _⟩ := (Proto.unmarshalRecord_iff b m).mp h
  refine ⟨hd.length, ?_⟩
  intro i sch ms e1 e2 s hs
  obtain ⟨f, hf, hh, d, e, _, hm⟩ := Proto.forall₂_mem_right (hd.sens i sch ms e1 e2) hs
  exact isMessage_shaped hm

theorem decTime_ok (v : UInt32) : TimeOk (decTime v) := by
  have h := v.toNat_lt
  have key : ∀ o : Int, o = 1262304000000000000 → ∀ n : Nat, n < 4294967296 → (-62167219200000000000 : Int) ≤ o + (n : Int) * 1000000000 ∧
      o + (n : Int) * 1000000000 < (253402300800000000000 : Int) := by
    intro o ho n hn
    constructor <;> omega
  exact key _ rfl _ h

/-- What holds of subrecords that are decoded. -/
def RecordData.Read (rd : RecordData) : Prop :=
  rd.Tagged ∧ (∀ d, rd.subrecordData = some d → d.Holds) ∧ ∀ d, rd.subrecordData = some (.pos d) → TimeOk d.navigationTime

theorem sub_read (env : Env) (f : Bytes → Except Err SrResponse) (t : UInt8) (len : UInt16) (b : Bytes) (d : SubData)
    (h : subDecode env f t len b = .ok (some d)) : RecordData.Read ⟨t, len, some d⟩ := by
  have hd := sub_decoded env f t len b d h
  have key : (t = d.code ∨ (t = 20 ∧ d.code = 21)) ∧ d.Holds := by
    unfold subDecode at h
    split at h
    all_goals first
      | (obtain ⟨x, hx, h⟩ := bind_eq_ok.mp h
         injection h with h; injection h with h; subst h
         refine ⟨.inl (UInt8.toNat_inj.mp ‹_›), ?_⟩
         first
           | trivial
           | (obtain ⟨_, _, _, _, h1, h2, _⟩ := hd
              refine ⟨?_, ?_⟩
              · rw [h1]; exact rnd_idem _
              · rw [h2]; exact rnd_idem _)
           | (unfold StorageRecord.decode at hx
              split at hx
              · injection hx with hx
                subst hx
                exact unmarshal_holds ‹_›
              · cases hx))
      | (split at h
         · obtain ⟨x, hx, h⟩ := bind_eq_ok.mp h
           injection h with h; injection h with h; subst h
           exact ⟨.inr ⟨UInt8.toNat_inj.mp ‹_›, rfl⟩, trivial⟩
         · cases h)
      | (injection h with h; cases h)
  refine ⟨?_, ?_, ?_⟩
  · intro d' hd'
    injection hd' with hd'
    subst hd'
    exact key.1
  · intro d' hd'
    injection hd' with hd'
    subst hd'
    exact key.2
  · intro d' hd'
    injection hd' with hd'
    subst hd'
    obtain ⟨t, _, _, h1, _⟩ := hd
    rw [h1]
    exact decTime_ok t

theorem sdrHead_time {r r' : Bytes} {s : ServiceDataRecord} (h : sdrHead r = .ok (s, r')) : TimeOk s.time := by
  unfold sdrHead at h
  obtain ⟨⟨_, _⟩, _, h⟩ := bind_eq_ok.mp h
  obtain ⟨⟨_, _⟩, _, h⟩ := bind_eq_ok.mp h
  obtain ⟨⟨_, _⟩, _, h⟩ := bind_eq_ok.mp h
  obtain ⟨⟨_, _⟩, _, h⟩ := bind_eq_ok.mp h
  obtain ⟨⟨_, _⟩, _, h⟩ := bind_eq_ok.mp h
  obtain ⟨⟨tm, _⟩, ht, h⟩ := bind_eq_ok.mp h
  obtain ⟨⟨_, _⟩, _, h⟩ := bind_eq_ok.mp h
  obtain ⟨⟨_, _⟩, _, h⟩ := bind_eq_ok.mp h
  injection h with h
  injection h with h _
  subst h
  unfold optTime at ht
  split at ht
  · obtain ⟨⟨x, y⟩, _, ht⟩ := bind_eq_ok.mp ht
    injection ht with ht
    injection ht with ht _
    subst ht
    exact decTime_ok _
  · injection ht with ht
    injection ht with ht _
    subst ht
    show TimeOk zeroTime
    decide

/-- Decoded packages can be read back, and their times can be written. -/
theorem decoded_readable {env : Env} {key : Option SecretKey} {p q : Package} {c : Slice} {err : Option Err}
    (h : Package.decode env key p c = .ret q 0 err) : q.Readable ∧ ∀ t ∈ q.times, TimeOk t := by
  have := records_all (P := RecordData.Read) (Q := fun r => TimeOk r.time ∧ ∀ rd ∈ r.recordDataSet, rd.Read)
    (fun f t len b d hd => sub_read env f t len b d hd) (fun r s r' hs rds hrds => ⟨sdrHead_time (s := s) hs, hrds⟩) h
  refine ⟨fun r hr rd hrd => ⟨((this r hr).2 rd hrd).1, ((this r hr).2 rd hrd).2.1⟩, fun t ht => ?_⟩
  obtain ⟨r, hr, ht⟩ := List.mem_flatMap.mp ht
  rcases List.mem_cons.mp ht with rfl | ht
  · exact (this r hr).1
  · obtain ⟨rd, hrd, ht⟩ := List.mem_flatMap.mp ht
    split at ht
    · rename_i d hd
      rw [List.mem_singleton] at ht
      subst ht
      exact ((this r hr).2 rd hrd).2.2 d hd
    · cases ht

end Egts
