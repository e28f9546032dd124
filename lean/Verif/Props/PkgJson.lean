import Verif.Proofs.PkgJsonWhole
import Verif.Proofs.ServerExamples

/-!
# The JSON text of a package (C80)

Reading the text (RFC 8259, RFC 3339, RFC 4648) and what is compared is in `Spec/PkgJson.lean`, UTF-8 in `Spec/Utf8.lean`. In the
theorems `nils` tells of each record whether its set of subrecords is nil, if it is empty.
-/

namespace Egts
open Json Utf8

/-- The nanoseconds from 1970 to the beginning of a year. -/
def beginOfYear (y : Int) : Int := (dayNumber y 1 1 - dayNumber 1970 1 1) * 86400 * 1000000000

theorem timeOk_iff (t : GoTime) : TimeOk t ↔ beginOfYear 0 ≤ t ∧ t < beginOfYear 10000 := Iff.rfl

/-- A `float32` that is an infinity or not a number: all bits of the exponent are set (IEEE 754). -/
def NotFinite (bits : UInt32) : Prop := bits.toNat / 2 ^ 23 % 256 = 255

instance (bits : UInt32) : Decidable (NotFinite bits) := inferInstanceAs (Decidable (_ = _))

/-! ## The full statement is false -/

/-- A packet with a dispatcher's description of three bytes, none of which is part of a character. -/
def latinFrame (x y z : UInt8) : Bytes :=
  [1, 0, 0, 11, 0, 18, 0, 5, 0, 1, 161, 11, 0, 8, 0, 0, 1, 1, 5, 8, 0, 1, 7, 0, 0, 0, x, y, z, 189, 207]

/-- The package in it. -/
def latinPackage (x y z : UInt8) : Package :=
  Ex.pkg 18 161 53181 [Ex.recN 11 8 1 [{ subrecordType := 5, subrecordLength := 8, subrecordData := some (.disp
    { dispatcherType := 1, dispatcherID := 7, description := [x, y, z] }) }]]

/-- EGTS+ data with a fuel level. -/
def fuelData (value : UInt32) : StorageRecord :=
  { recordNumber := some 1, timeStamp := some 2, statusFlags := some 3,
    sens := (List.replicate 18 []).set 1 [{ vals := [some (.num 4), some (.num value), none, none, none, none] }] }

def fuelSub (value : UInt32) : RecordData :=
  { subrecordType := 15, subrecordLength := 21, subrecordData := some (.plus (fuelData value)) }

/-- A packet with EGTS+ data in which the fuel level is not a number. -/
def nanFrame : Bytes :=
  [1, 0, 0, 11, 0, 31, 0, 5, 0, 1, 83, 24, 0, 8, 0, 0, 1, 1, 15, 21, 0, 8, 1, 21, 2, 0, 0, 0, 37, 3, 0, 0, 0, 66, 7, 8, 4, 21, 0, 0, 192, 127, 192, 125]

/-- The package in it. -/
def nanPackage : Package := Ex.pkg 31 83 32192 [Ex.recN 24 8 1 [fuelSub 0x7FC00000]]

set_option maxRecDepth 20000 in
/-- The text does not determine the package: two packets with different descriptions (and the same checksum), which `Decode`
returns as they are, have the same text. -/
theorem C80_false_strings (env : Env) : latinPackage 0x80 0x80 0x80 ≠ latinPackage 0x81 0x90 0xA1 ∧
    (∀ key, Package.decode env key {} ⟨latinFrame 0x80 0x80 0x80, []⟩ = .ret (latinPackage 0x80 0x80 0x80) 0 none ∧
      Package.decode env key {} ⟨latinFrame 0x81 0x90 0xA1, []⟩ = .ret (latinPackage 0x81 0x90 0xA1) 0 none) ∧
    ∀ nils, ∃ b, (latinPackage 0x80 0x80 0x80).toBytes nils = some b ∧ (latinPackage 0x81 0x90 0xA1).toBytes nils = some b := by
  refine ⟨by decide, fun _ => ⟨by with_unfolding_all rfl, by with_unfolding_all rfl⟩, fun nils => ?_⟩
  have h0 : ∀ x y z, (latinPackage x y z).toBytes nils = (latinPackage x y z).toBytes fun _ => false := by
    intro x y z
    simp [Package.toBytes, Package.goVal, latinPackage, Ex.pkg, Ex.recN, setVal, ServiceDataRecord.goVal]
  have h1 : ((latinPackage 0x80 0x80 0x80).toBytes fun _ => false) = (latinPackage 0x81 0x90 0xA1).toBytes fun _ => false := by decide +kernel
  have h2 : ((latinPackage 0x80 0x80 0x80).toBytes fun _ => false).isSome := by decide +kernel
  obtain ⟨b, hb⟩ := Option.isSome_iff_exists.mp h2
  exact ⟨b, by rw [h0, hb], by rw [h0, ← h1, hb]⟩

set_option maxRecDepth 20000 in
/-- There is a packet, decoded without error, for which there is no text. -/
theorem C80_false_error (env : Env) (key : Option SecretKey) :
    Package.decode env key {} ⟨nanFrame, []⟩ = .ret nanPackage 0 none ∧ ∀ nils, nanPackage.toBytes nils = none := by
  refine ⟨by with_unfolding_all rfl, fun nils => ?_⟩
  have h0 : nanPackage.toBytes nils = nanPackage.toBytes fun _ => false := by
    simp [Package.toBytes, Package.goVal, nanPackage, Ex.pkg, Ex.recN, setVal, ServiceDataRecord.goVal]
  rw [h0]
  decide +kernel

/-! ## What holds -/

/-- The text is UTF-8, and the package is read back from it with all its fields: those of the header, of the records and of the
subrecords, and whether the services' data is a response. Strings are read back repaired: U+FFFD stands for each byte that is not
part of a character; of EGTS+ data, `StorageRecord.shown` says what is read back. Missing: that strings which are not UTF-8 and
the unknown fields of EGTS+ data are read back, see `C80_false_strings`. -/
theorem C80_read_back_partial : ∃ fix : Bytes → Bytes, (∀ s, Repaired s (fix s)) ∧ ∀ (nils : Nat → Bool) (p : Package) (b : Bytes),
    p.Readable → p.toBytes nils = some b → WellFormed b ∧ readPackage b = some (p.shown fix) :=
  ⟨repair, repair_repaired, fun _ _ _ h hb => ⟨(readPackage_toBytes h hb).2, (readPackage_toBytes h hb).1⟩⟩

/-- The packages that are read back as they were are those whose strings are UTF-8, and whose EGTS+ data has no unknown fields, no
byte strings without bytes and no negative zero. -/
theorem C80_lossless_iff (nils : Nat → Bool) (p : Package) (b : Bytes) (h : p.Readable) (hb : p.toBytes nils = some b) :
    readPackage b = some p ↔ (∀ s ∈ p.strings, WellFormed s) ∧ ∀ m ∈ p.plus, m.Whole := by
  rw [(readPackage_toBytes h hb).1, Option.some.injEq, package_self]
  simp only [fix_iff repair_repaired]

/-- Two packages with the same text differ at most in what the theorems above say is not read back. -/
theorem C80_same_text (fix : Bytes → Bytes) (hfix : ∀ s, Repaired s (fix s)) (nils nils' : Nat → Bool) (p q : Package) (b : Bytes)
    (hp : p.Readable) (hq : q.Readable) (h1 : p.toBytes nils = some b) (h2 : q.toBytes nils' = some b) : p.shown fix = q.shown fix := by
  obtain rfl : fix = repair := funext fun s => repaired_unique (hfix s) (repair_repaired s)
  have := (readPackage_toBytes hp h1).1.symm.trans (readPackage_toBytes hq h2).1
  injection this

/-- There is an error, and no text, exactly if a time is not in the years 0 to 9999 or a fuel level of EGTS+ data is an infinity or
not a number. -/
theorem C80_error_iff (nils : Nat → Bool) (p : Package) :
    p.toBytes nils = none ↔ (∃ t ∈ p.times, t < beginOfYear 0 ∨ beginOfYear 10000 ≤ t) ∨ ∃ x ∈ p.floats, NotFinite x := by
  rw [← Option.not_isSome_iff_eq_none, toBytes_isSome, not_and_or]
  simp only [timeOk_iff, not_forall, FiniteF32, NotFinite, not_not, exists_prop, not_and_or, not_le, not_lt]

/-- A decoded package has a text unless a fuel level is an infinity or not a number, and is read back from it, but for strings that
are not UTF-8. Missing: see `C80_false_error`. -/
theorem C80_decoded_partial : ∃ fix : Bytes → Bytes, (∀ s, Repaired s (fix s)) ∧
    ∀ (env : Env) (key : Option SecretKey) (p q : Package) (c : Slice) (err : Option Err) (nils : Nat → Bool),
      Package.decode env key p c = .ret q 0 err →
        (q.toBytes nils = none ↔ ∃ x ∈ q.floats, NotFinite x) ∧ ∀ b, q.toBytes nils = some b → WellFormed b ∧ readPackage b = some (q.shown fix) := by
  refine ⟨repair, repair_repaired, fun env key p q c err nils h => ?_⟩
  obtain ⟨hr, ht⟩ := decoded_readable h
  refine ⟨?_, fun b hb => ⟨(readPackage_toBytes hr hb).2, (readPackage_toBytes hr hb).1⟩⟩
  rw [C80_error_iff]
  constructor
  · rintro (⟨t, h1, h2⟩ | h)
    · obtain ⟨h3, h4⟩ := (timeOk_iff t).mp (ht t h1)
      rcases h2 with h2 | h2
      · exact absurd h3 (not_le.mpr h2)
      · exact absurd h4 (not_lt.mpr h2)
    · exact h
  · exact .inr

/-! ## Examples -/

/-- Two records: EGTS+ data with a fuel level of 25, and a description with a character that is not ASCII and one that is escaped. -/
def textPackage : Package :=
  Ex.pkg 0 0 0 [Ex.recN 0 8 1 [fuelSub 0x41C80000], Ex.recO 0 9 [Ex.posSub 1, { subrecordType := 5, subrecordData := some (.disp
    { dispatcherType := 1, dispatcherID := 7, description := enc 0x416 ++ [60] }) }]]

theorem text_readable : textPackage.Readable := by
  intro r hr rd hrd
  simp only [textPackage, Package.records, Ex.pkg, List.mem_cons, List.not_mem_nil, or_false] at hr
  rcases hr with rfl | rfl
  · simp only [Ex.recN, List.mem_cons, List.not_mem_nil, or_false] at hrd
    subst hrd
    refine ⟨fun d hd => ?_, fun d hd => ?_⟩ <;> (simp only [fuelSub, Option.some.injEq] at hd; subst hd)
    · exact .inl rfl
    · refine ⟨rfl, fun i sch ms h1 h2 s hs => ?_⟩
      change ((List.replicate 18 ([] : List Proto.Sens)).set 1 _)[i]? = _ at h2
      rw [List.getElem?_set] at h2
      split at h2
      · rename_i h; subst h
        simp at h2
        subst h2
        rw [List.mem_singleton] at hs
        subst hs
        cases h1
        refine ⟨rfl, fun i f v h1 h2 => ?_⟩
        match i with
        | 0 => cases h1; cases h2; trivial
        | 1 => cases h1; cases h2; trivial
        | 2 | 3 | 4 | 5 => cases h2
        | n + 6 => cases h2
      · rw [List.getElem?_replicate] at h2
        split at h2
        · cases h2; cases hs
        · cases h2
  · simp only [Ex.recO, List.mem_cons, List.not_mem_nil, or_false] at hrd
    rcases hrd with rfl | rfl
    · refine ⟨fun d hd => ?_, fun d hd => ?_⟩ <;> cases hd
      · exact .inl rfl
      · exact ⟨rnd_zero, rnd_zero⟩
    · refine ⟨fun d hd => ?_, fun d hd => ?_⟩ <;> cases hd
      · exact .inl rfl
      · trivial

/-- Its text. -/
def textBytes : Bytes :=
  go!"{\"PRV\":1,\"SKID\":0,\"PRF\":\"00\",\"RTE\":\"0\",\"ENA\":\"00\",\"CMP\":\"0\",\"PR\":\"00\",\"HL\":11,\"HE\":0,\"FDL\":0,\"PID\":5,\"PT\":1,\"PRA\":0,\"RCA\":0,\"TTL\":0,\"HCS\":0,\"SFRD\":[" ++
  go!"{\"RL\":0,\"RN\":8,\"SSOD\":\"0\",\"RSOD\":\"0\",\"GRP\":\"0\",\"RPP\":\"00\",\"TMFE\":\"0\",\"EVFE\":\"0\",\"OBFE\":\"0\",\"OID\":0,\"EVID\":0,\"TM\":\"0001-01-01T00:00:00Z\",\"SST\":1,\"RST\":1," ++
  go!"\"RD\":[{\"SRT\":15,\"SRL\":21,\"SRD\":{\"record_number\":1,\"time_stamp\":2,\"status_flags\":3,\"sens_fuel_level\":[{\"sens_num\":4,\"value\":25}]}}]}," ++
  go!"{\"RL\":0,\"RN\":9,\"SSOD\":\"0\",\"RSOD\":\"0\",\"GRP\":\"0\",\"RPP\":\"00\",\"TMFE\":\"0\",\"EVFE\":\"0\",\"OBFE\":\"1\",\"OID\":5,\"EVID\":0,\"TM\":\"0001-01-01T00:00:00Z\",\"SST\":2,\"RST\":2," ++
  go!"\"RD\":[{\"SRT\":16,\"SRL\":21,\"SRD\":{\"NTM\":\"2010-01-01T00:00:01Z\",\"LAT\":0,\"LONG\":0,\"ALTE\":\"0\",\"LOHS\":\"0\",\"LAHS\":\"0\",\"MV\":\"0\",\"BB\":\"0\",\"CS\":\"0\",\"FIX\":\"0\",\"VLD\":\"0\"," ++
  go!"\"DIRH\":0,\"ALTS\":0,\"SPD\":0,\"DIR\":0,\"ODM\":0,\"DIN\":0,\"SRC\":0,\"ALT\":0,\"SRCD\":0}},{\"SRT\":5,\"SRL\":0,\"SRD\":{\"DT\":1,\"DID\":7,\"DSCR\":\"" ++ enc 0x416 ++
  go!"\\u003c\"}}]}],\"SFRCS\":0}"

theorem text_toBytes : textPackage.toBytes (fun _ => false) = some textBytes := by decide +kernel

example : readPackage textBytes = some textPackage := by decide +kernel

/-- The hypotheses of `C80_read_back_partial`, `C80_lossless_iff` and `C80_same_text`. Nothing is lost here. -/
example : (∀ s ∈ textPackage.strings, s ≠ enc 0x416 ++ [60] → IsAscii s) ∧ enc 0x416 ++ [60] ∈ textPackage.strings ∧
    textPackage.plus = [fuelData 0x41C80000] := by
  unfold IsAscii
  decide +kernel

/-- The hypothesis of `C80_decoded_partial`, and both cases of it: the packets of `C80_false_strings` and `C80_false_error`. -/
example : nanPackage.floats = [0x7FC00000] ∧ NotFinite 0x7FC00000 ∧ (latinPackage 0x80 0x80 0x80).floats = [] := by decide +kernel

/-- The limits of `C80_error_iff`, in nanoseconds since 1970. -/
example : beginOfYear 0 = -62167219200000000000 ∧ beginOfYear 10000 = 253402300800000000000 := by decide

end Egts
