import Verif.Proofs.Cut
import Verif.Proofs.ProtoCut
import Verif.Props.Proto

/-! # Cut subrecords, exactly (C39) -/

namespace Egts
open Layout

/-- Exactly: of an encoded subrecord, which beginnings are accepted as a subrecord of the declared length. (C39 would have it that none
but the whole is, see `C39_false`.) -/
theorem C39_exact (env : Env) (d : SubData) (hw : d.WF env) (b : Bytes) (h : d.encode env = .ok b)
    (hl : b.length < 2 ^ 16) (n : Nat) (hn : n ≤ b.length) :
    (∃ rds, RecordDataSet.decode env [] (subrecordWire d.code (b.take n)) = .ok rds) ↔ d.Enough b n := by
  have hlen : (b.take n).length = n := by rw [List.length_take, Nat.min_eq_left hn]
  have hx : (b.take n).length < 2 ^ 16 := by omega
  have hk : d.code.toNat ∈ knownTypes := by cases d <;> (simp only [SubData.code]; decide)
  rw [one_subrecord env d.code _ hk hx]
  cases d with
  | plus m =>
    refine (subrecord_kind (by simp only [SubData.code]; decide) _).trans ?_
    have hm : Proto.marshal m = some b := by
      simp only [SubData.encode, StorageRecord.encode] at h
      split at h
      · injection h with h; rw [← h]; assumption
      · cases h
    have e : ∀ x : StorageRecord, (∃ b', x.encode = .ok b' ∧ b'.length ≤ n) ↔ ∃ b', Proto.marshal x = some b' ∧ b'.length ≤ n := by
      intro x
      unfold StorageRecord.encode
      cases Proto.marshal x <;> simp
    simp only [SubData.Enough, e]
    refine Iff.trans ?_ (Proto.cut_iff hw hm n)
    simp only [IsKind, SubData.code, Proto.unmarshalRecord_iff]
    simp
  | pos d =>
    refine (subrecord_kind (by simp only [SubData.code]; decide) _).trans (Iff.trans ?_ (enough_pos env d hw.1 b h n hn))
    simp [IsKind, SubData.code, and_assoc]
  | term d =>
    refine (subrecord_kind (by simp only [SubData.code]; decide) _).trans (Iff.trans ?_ (enough_term d hw b h n hn))
    simp [IsKind, SubData.code, and_assoc]
  | extPos d =>
    refine (subrecord_kind (by simp only [SubData.code]; decide) _).trans (Iff.trans ?_ (enough_extPos d hw b h n hn))
    simp [IsKind, SubData.code, and_assoc]
  | adSens d =>
    refine (subrecord_kind (by simp only [SubData.code]; decide) _).trans (Iff.trans ?_ (enough_adSens d hw b h n hn))
    simp [IsKind, SubData.code, and_assoc]
  | counters d =>
    refine (subrecord_kind (by simp only [SubData.code]; decide) _).trans (Iff.trans ?_ (enough_counters d hw b h n hn))
    simp [IsKind, SubData.code, and_assoc]
  | auth d =>
    refine (subrecord_kind (by simp only [SubData.code]; decide) _).trans (Iff.trans ?_ (enough_auth d hw b h n hn))
    simp [IsKind, SubData.code, auth_read]
  | module d =>
    refine (subrecord_kind (by simp only [SubData.code]; decide) _).trans ?_
    have e : (∃ d', IsKind (SubData.module d).code.toNat (b.take n).length (b.take n) d') ↔ ∃ y, SrModuleData.decode {} (b.take n) = .ok y := by
      simp [IsKind, SubData.code, module_read]
    rw [e]
    show _ ↔ b.length < n + 1
    constructor
    · rintro ⟨y, hy⟩
      by_contra hc
      obtain ⟨e, he⟩ := C39_module_partial d {} hw b h n (by omega)
      rw [he] at hy
      cases hy
    · intro h'
      obtain ⟨b', he, hd⟩ := module_rt d {} hw
      rw [show d.encode = .ok b from h] at he
      cases he
      exact ⟨d, by rw [show n = b.length by omega, List.take_length]; exact hd⟩
  | result d =>
    refine (subrecord_kind (by simp only [SubData.code]; decide) _).trans ?_
    have hb : b.length = 1 := by cases h; rfl
    simp only [IsKind, SubData.code, SubData.Enough, SubData.lastField, hlen, hb]
    simp
    omega
  | state d =>
    refine (subrecord_kind (by simp only [SubData.code]; decide) _).trans ?_
    have hb : b.length = 5 := by
      simp only [SubData.encode, SrStateData.encode, bind_eq_ok, pure_eq_ok, Except.ok.injEq] at h
      obtain ⟨f, _, rfl⟩ := h
      rfl
    simp only [IsKind, SubData.code, SubData.Enough, SubData.lastField, hlen, hb]
    simp
    omega
  | liquid d =>
    refine (subrecord_kind (by simp only [SubData.code]; decide) _).trans ?_
    have hb : b.length = 7 := by
      simp only [SubData.encode, SrLiquidLevelSensor.encode, bind_eq_ok, pure_eq_ok, Except.ok.injEq] at h
      obtain ⟨f, _, rfl⟩ := h
      rfl
    simp only [IsKind, SubData.code, SubData.Enough, SubData.lastField, hlen, hb]
    simp
    omega
  | absCntr d =>
    refine (subrecord_kind (by simp only [SubData.code]; decide) _).trans ?_
    have hb : b.length = 4 := by cases h; rfl
    simp only [IsKind, SubData.code, SubData.Enough, SubData.lastField, hlen, hb]
    simp
    omega
  | absAn d =>
    refine (subrecord_kind (by simp only [SubData.code]; decide) _).trans ?_
    have hb : b.length = 4 := by cases h; rfl
    simp only [IsKind, SubData.code, SubData.Enough, SubData.lastField, hlen, hb]
    simp
    omega
  | disp d =>
    refine (subrecord_kind (by simp only [SubData.code]; decide) _).trans ?_
    simp only [IsKind, SubData.code, SubData.Enough, hlen]
    simp
  | resp d =>
    have hb : b.length = 3 := by cases h; rfl
    simp only [SubData.Enough, SubData.lastField, hb]
    constructor
    · rintro ⟨d', h⟩
      cases h with
      | plain _ _ _ _ h => simp [IsKind, SubData.code] at h
      | response _ _ rs h1 h2 => omega
    · intro h
      exact ⟨_, .response _ _ [] (by omega) (by rw [List.drop_eq_nil_of_le (by omega)]; exact .nil)⟩

/-- Terminal identity whose last field is the IMEI: accepted with one of its digits, the others are then zero bytes. -/
example : ∃ (d : SrTermIdentity) (b : Bytes), d.WF ∧ d.encode = .ok b ∧ b.length = 20 ∧ (SubData.term d).Enough b 6 ∧
    ¬ (SubData.term d).Enough b 5 ∧ ¬ (SubData.term { d with imeie := go!"0" }).Enough (b.take 5) 4 :=
  ⟨{ terminalIdentifier := 4711, mne := go!"0", bse := go!"0", nide := go!"0", ssra := go!"1", lngce := go!"0", imsie := go!"0",
     imeie := go!"1", hdide := go!"0", imei := go!"123456789012345" }, _, by unfold SrTermIdentity.WF; decide, rfl, by decide,
    by unfold SubData.Enough; decide, by unfold SubData.Enough; decide, by unfold SubData.Enough; decide⟩

/-- EGTS+ data cut after the status flags, after the first sensor, within it, and before the status flags. -/
example : ∃ b, plusExample.encode = .ok b ∧ b.length = 60 ∧ (SubData.plus plusExample).Enough b 27 ∧ (SubData.plus plusExample).Enough b 34 ∧
    ¬ (SubData.plus plusExample).Enough b 33 ∧ ¬ (SubData.plus plusExample).Enough b 22 := by
  refine ⟨_, by rw [StorageRecord.encode, plusExample_bytes], rfl, ?_⟩
  have key := fun n hn => C39_exact ⟨fun _ => 0⟩ (.plus plusExample) plusExample_valid _ (by rw [SubData.encode, StorageRecord.encode, plusExample_bytes])
    (by decide) n hn
  have ok : ∀ x : Except Err (List RecordData), (∃ rds, x = .ok rds) ↔ x.toOption.isSome = true := by
    intro x; cases x <;> simp [Except.toOption]
  simp only [ok] at key
  refine ⟨?_, ?_, ?_, ?_⟩ <;> rw [← key _ (by decide)] <;> decide +kernel

end Egts
