import Verif.Proofs.Conn

/-! # Concrete packets that show the hypotheses of the receiver theorems can be met -/

namespace Egts
namespace Ex

/-- a position at latitude and longitude 0, `s` seconds after the start of 2010 -/
def zeroPos (s : Nat) : SrPosData :=
  { navigationTime := 1262304000000000000 + 1000000000 * s
    latitude := 0
    longitude := 0
    alte := go!"0"
    lohs := go!"0"
    lahs := go!"0"
    mv := go!"0"
    bb := go!"0"
    cs := go!"0"
    fix := go!"0"
    vld := go!"0" }

def posSub (s : Nat) : RecordData := { subrecordType := 16, subrecordLength := 21, subrecordData := some (.pos (zeroPos s)) }

def liquidSub : RecordData :=
  { subrecordType := 27, subrecordLength := 7, subrecordData := some (.liquid
    { errorFlag := go!"0", valueUnit := go!"10", rawDataFlag := go!"0", sensorNumber := 2, moduleAddress := 1, sensorData := 100 }) }

def analogSub : RecordData :=
  { subrecordType := 24, subrecordLength := 4, subrecordData := some (.absAn { sensorNumber := 3, value := 200 }) }

def termSub : RecordData :=
  { subrecordType := 1, subrecordLength := 5, subrecordData := some (.term
    { terminalIdentifier := 9, mne := go!"0", bse := go!"0", nide := go!"0", ssra := go!"0", lngce := go!"0", imsie := go!"0",
      imeie := go!"0", hdide := go!"0" }) }

def respSub : RecordData :=
  { subrecordType := 0, subrecordLength := 3, subrecordData := some (.resp { confirmedRecordNumber := 1, recordStatus := 0 }) }

def counterSub (n : UInt8) (v : UInt32) : RecordData :=
  { subrecordType := 25, subrecordLength := 4, subrecordData := some (.absCntr { counterNumber := n, counterValue := v }) }

/-- a record with object id 5 -/
def recO (len num : UInt16) (subs : List RecordData) : ServiceDataRecord :=
  { recordLength := len, recordNumber := num, ssod := go!"0", rsod := go!"0", grp := go!"0", rpp := go!"00", tmfe := go!"0", evfe := go!"0",
    obfe := go!"1", objectIdentifier := 5, sourceServiceType := 2, recipientServiceType := 2, recordDataSet := subs }

/-- a record without object id -/
def recN (len num : UInt16) (st : UInt8) (subs : List RecordData) : ServiceDataRecord :=
  { recordLength := len, recordNumber := num, ssod := go!"0", rsod := go!"0", grp := go!"0", rpp := go!"00", tmfe := go!"0", evfe := go!"0",
    obfe := go!"0", sourceServiceType := st, recipientServiceType := st, recordDataSet := subs }

def pkg (fdl : UInt16) (hcs : UInt8) (crc : UInt16) (recs : List ServiceDataRecord) : Package :=
  { protocolVersion := 1, prefix_ := go!"00", route := go!"0", encryptionAlg := go!"00", compression := go!"0", priority := go!"00",
    headerLength := 11, frameDataLength := fdl, packetIdentifier := 5, packetType := 1, headerCheckSum := hcs, servicesFrameDataCheckSum := crc,
    servicesFrameData := some (.sds recs) }

/-- two positions in one record -/
def twoPos : Bytes :=
  [1, 0, 0, 11, 0, 59, 0, 5, 0, 1, 180, 48, 0, 7, 0, 1, 5, 0, 0, 0, 2, 2, 16, 21, 0, 0, 0, 0, 0, 0, 0, 0, 0, 0, 0, 0, 0,
   0, 0, 0, 0, 0, 0, 0, 0, 0, 16, 21, 0, 1, 0, 0, 0, 0, 0, 0, 0, 0, 0, 0, 0, 0, 0, 0, 0, 0, 0, 0, 0, 0, 200, 113]
def twoPosRecs : List ServiceDataRecord := [recO 48 7 [posSub 0, posSub 1]]

/-- a record with object id, position, liquid level and analog sensor, and a record with terminal identity and position -/
def good : Bytes :=
  [1, 0, 0, 11, 0, 91, 0, 5, 0, 1, 141, 41, 0, 7, 0, 1, 5, 0, 0, 0, 2, 2, 16, 21, 0, 0, 0, 0, 0, 0, 0, 0, 0, 0, 0, 0, 0, 0, 0, 0, 0, 0,
   0, 0, 0, 0, 27, 7, 0, 34, 1, 0, 100, 0, 0, 0, 24, 4, 0, 3, 200, 0, 0, 32, 0, 8, 0, 0, 1, 1, 1, 5, 0, 9, 0, 0, 0, 0, 16, 21, 0, 1, 0,
   0, 0, 0, 0, 0, 0, 0, 0, 0, 0, 0, 0, 0, 0, 0, 0, 0, 0, 0, 184, 189]
def goodRecs : List ServiceDataRecord := [recO 41 7 [posSub 0, liquidSub, analogSub], recN 32 8 1 [termSub, posSub 1]]

/-- a record with a record response between two records with positions -/
def withResp : Bytes :=
  [1, 0, 0, 11, 0, 79, 0, 5, 0, 1, 238, 24, 0, 7, 0, 1, 5, 0, 0, 0, 2, 2, 16, 21, 0, 0, 0, 0, 0, 0, 0, 0, 0, 0, 0, 0, 0, 0, 0, 0, 0, 0,
   0, 0, 0, 0, 6, 0, 8, 0, 0, 2, 2, 0, 3, 0, 1, 0, 0, 24, 0, 9, 0, 0, 2, 2, 16, 21, 0, 1, 0, 0, 0, 0, 0, 0, 0, 0, 0, 0, 0, 0, 0, 0, 0,
   0, 0, 0, 0, 0, 244, 75]
def withRespRecs : List ServiceDataRecord := [recO 24 7 [posSub 0], recN 6 8 2 [respSub], recN 24 9 2 [posSub 1]]

/-- counters 110 = 1 and 111 = 0, and a position -/
def counters : Bytes :=
  [1, 0, 0, 11, 0, 49, 0, 5, 0, 1, 29, 38, 0, 7, 0, 1, 5, 0, 0, 0, 2, 2, 25, 4, 0, 110, 1, 0, 0, 25, 4, 0, 111, 0, 0, 0, 16, 21, 0, 0,
   0, 0, 0, 0, 0, 0, 0, 0, 0, 0, 0, 0, 0, 0, 0, 0, 0, 0, 0, 0, 130, 8]
def countersRecs : List ServiceDataRecord := [recO 38 7 [counterSub 110 1, counterSub 111 0, posSub 0]]

/-- a response packet -/
def response : Bytes := [1, 0, 0, 11, 0, 3, 0, 5, 0, 0, 63, 216, 0, 0, 169, 0]

set_option maxRecDepth 40000 in
theorem twoPos_decode (env : Env) : Package.decode env none {} ⟨twoPos, []⟩ = .ret (pkg 59 180 29128 twoPosRecs) 0 none := by
  with_unfolding_all rfl

set_option maxRecDepth 40000 in
theorem good_decode (env : Env) : Package.decode env none {} ⟨good, []⟩ = .ret (pkg 91 141 48568 goodRecs) 0 none := by
  with_unfolding_all rfl

set_option maxRecDepth 40000 in
theorem withResp_decode (env : Env) : Package.decode env none {} ⟨withResp, []⟩ = .ret (pkg 79 238 19444 withRespRecs) 0 none := by
  with_unfolding_all rfl

set_option maxRecDepth 40000 in
theorem counters_decode (env : Env) : Package.decode env none {} ⟨counters, []⟩ = .ret (pkg 49 29 2178 countersRecs) 0 none := by
  with_unfolding_all rfl

theorem twoPos_accepts (env : Env) (sp : Bytes) : Accepts env ⟨twoPos, sp⟩ (pkg 59 180 29128 twoPosRecs) twoPosRecs :=
  ⟨accept_spare env none {} (twoPos_decode env), rfl, rfl⟩

theorem good_accepts (env : Env) (sp : Bytes) : Accepts env ⟨good, sp⟩ (pkg 91 141 48568 goodRecs) goodRecs :=
  ⟨accept_spare env none {} (good_decode env), rfl, rfl⟩

theorem withResp_accepts (env : Env) (sp : Bytes) : Accepts env ⟨withResp, sp⟩ (pkg 79 238 19444 withRespRecs) withRespRecs :=
  ⟨accept_spare env none {} (withResp_decode env), rfl, rfl⟩

theorem counters_accepts (env : Env) (sp : Bytes) : Accepts env ⟨counters, sp⟩ (pkg 49 29 2178 countersRecs) countersRecs :=
  ⟨accept_spare env none {} (counters_decode env), rfl, rfl⟩

theorem framed : WellFramed twoPos ∧ WellFramed good ∧ WellFramed withResp ∧ WellFramed counters ∧ WellFramed response := by decide

end Ex
end Egts
