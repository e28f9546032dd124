import Verif.Spec.Json
import Verif.Proofs.Saved
import Verif.Props.Receiver

/-!
# What reaches a storage (C66–C68)

`NavRecord.toBytes` is `NavRecord.ToBytes` (`cli/receiver/storage/packet.go`), which every connector stores.
`Json.readNav` (`Spec/Json.lean`) is a reader of it: a JSON parser that knows nothing of how the text was made, and the
members by name.
-/

namespace Egts

/-! ## C66 -/

/-- The stored text is JSON, and reading it gives back each field: coordinates as the very same doubles. -/
theorem C66_lossless (r : NavRecord) (h : r.Ok) : Json.readNav r.toBytes = some r := readNav_toBytes r h

/-- Different records have different texts. -/
theorem C66_injective (r s : NavRecord) (hr : r.Ok) (hs : s.Ok) (h : r.toBytes = s.toBytes) : r = s := by
  have := C66_lossless r hr
  rw [h, C66_lossless s hs] at this
  exact (Option.some.inj this).symm

/-- a record with all kinds of content -/
def fullRecord : NavRecord :=
  { client := 133552
    packetID := 14357
    navigationTimestamp := 1533570258
    receivedTimestamp := 1533570259
    latitude := decLat 2651121886
    longitude := decLon 896000000
    speed := 34
    pdop := 1
    hdop := 2
    vdop := 3
    nsat := 4
    ns := 5
    course := 172
    anSensors := [{ sensorNumber := 98, value := 0 }, { sensorNumber := 5, value := 4294967295 }]
    liquidSensors := [{ sensorNumber := 1, errorFlag := go!"0", valueMm := 0, valueL := 880 }] }

theorem fullRecord_ok : fullRecord.Ok :=
  ⟨rnd_idem _, rnd_idem _, by unfold IsAscii; decide⟩

example : fullRecord.Ok ∧ ({} : NavRecord).Ok := ⟨fullRecord_ok, ⟨rnd_zero, rnd_zero, by unfold IsAscii; decide⟩⟩

set_option maxRecDepth 100000 in
/-- The text of that record. -/
example : fullRecord.toBytes = go!"{\"client\":133552,\"packet_id\":14357,\"navigation_unix_time\":1533570258,\"received_unix_time\":1533570259,\"latitude\":55.553617373936255,\"longitude\":37.5509262172391,\"speed\":34,\"pdop\":1,\"hdop\":2,\"vdop\":3,\"nsat\":4,\"ns\":5,\"course\":172,\"an_sensors\":[{\"sensor_number\":98,\"value\":0},{\"sensor_number\":5,\"value\":4294967295}],\"liquid_sensors\":[{\"sensor_number\":1,\"error_flag\":\"0\",\"value_mm\":0,\"value_l\":880}]}" := by
  decide +kernel

/-- Every record that the receiver saves, for any packet whatsoever, is read back unchanged. -/
theorem C66_saved_lossless (env : Env) (now : Int) (client : UInt32) (pkt : Slice) :
    ∀ r ∈ saves (handlePacket env now client pkt).effs, Json.readNav r.toBytes = some r :=
  fun r hr => C66_lossless r (saved_ok hr)

/-- Over a whole connection: the texts stored, read back one by one, are the records saved. -/
theorem C66_connection_lossless (env : Env) (ce : ConnEnv) (input : Bytes) (e : End) :
    ((saves (handleConn env ce input e)).map NavRecord.toBytes).map Json.readNav = (saves (handleConn env ce input e)).map some := by
  rw [List.map_map]
  apply List.map_congr_left
  exact conn_saves (P := fun r => Json.readNav r.toBytes = some r) (fun i c b => C66_saved_lossless env _ c _) input e

example (env : Env) (sp : Bytes) : (saves (handlePacket env 1000 77 ⟨Ex.good, sp⟩).effs).length = 2 := by
  rw [C48_saved env 1000 77 _ _ _ (Ex.good_accepts env sp)]
  decide +kernel

/-! ## C67 -/

/-- Whatever bytes arrive, every record that is saved is plausible: a latitude from 0 to 90 and a longitude from 0 to
180 degrees, a speed of at most 1638, a time from the start of 2010 on for 2^32 seconds, and as the time of receipt that of the packet. -/
theorem C67_plausible (env : Env) (now : Int) (client : UInt32) (pkt : Slice) :
    ∀ r ∈ saves (handlePacket env now client pkt).effs,
      (0 ≤ r.latitude ∧ r.latitude ≤ 90) ∧ (0 ≤ r.longitude ∧ r.longitude ≤ 180) ∧ r.speed.toNat ≤ 1638 ∧
      (1262304000 ≤ r.navigationTimestamp ∧ r.navigationTimestamp < 1262304000 + 2 ^ 32) ∧ r.receivedTimestamp = now := by
  intro r hr
  obtain ⟨rec, d, cl, id, _, ⟨t, la, lo, ht, h1, h2, h3⟩, rfl⟩ := saved_from hr
  obtain ⟨a1, a2, _⟩ := decLat_range la
  obtain ⟨b1, b2, _⟩ := decLon_range lo
  have hlt := t.toNat_lt
  simp only [storedAs, h1, h2, ht]
  refine ⟨⟨a2, a1⟩, ⟨b2, b1⟩, h3, ?_, trivial⟩
  unfold GoTime.unix decTime timeOffset
  omega

/-- The bounds are met. -/
example : decLat 0 = 0 ∧ decLat 4294967295 = 90 ∧ decLon 4294967295 = 180 := by decide +kernel

/-- The same for all that is ever saved on a connection. -/
theorem C67_plausible_connection (env : Env) (ce : ConnEnv) (input : Bytes) (e : End) :
    ∀ r ∈ saves (handleConn env ce input e),
      (0 ≤ r.latitude ∧ r.latitude ≤ 90) ∧ (0 ≤ r.longitude ∧ r.longitude ≤ 180) ∧ r.speed.toNat ≤ 1638 ∧
      (1262304000 ≤ r.navigationTimestamp ∧ r.navigationTimestamp < 1262304000 + 2 ^ 32) ∧ ∃ i, r.receivedTimestamp = ce.clock i :=
  conn_saves (P := fun r => (0 ≤ r.latitude ∧ r.latitude ≤ 90) ∧ (0 ≤ r.longitude ∧ r.longitude ≤ 180) ∧ r.speed.toNat ≤ 1638 ∧
      (1262304000 ≤ r.navigationTimestamp ∧ r.navigationTimestamp < 1262304000 + 2 ^ 32) ∧ ∃ i, r.receivedTimestamp = ce.clock i)
    (fun i c b r hr => by
      obtain ⟨h1, h2, h3, h4, h5⟩ := C67_plausible env _ c _ r hr
      exact ⟨h1, h2, h3, h4, i, h5⟩) input e

/-- The stored degrees are those on the wire, a fraction of 90 or 180 of 2^32 - 1, to within 10^-13 degrees. -/
theorem C67_degrees (v : UInt32) :
    |decLat v - v.toNat * 90 / 4294967295| ≤ 1 / 10 ^ 13 ∧ |decLon v - v.toNat * 180 / 4294967295| ≤ 1 / 10 ^ 13 :=
  ⟨(decLat_range v).2.2, (decLon_range v).2.2⟩

/-! ## C68 -/

/-- a position in the given hemisphere, moving nowhere -/
def hemiPos (lahs : Bytes) : SrPosData :=
  { navigationTime := 1262304001000000000
    latitude := decLat 2651121886
    longitude := decLon 896000000
    alte := go!"0"
    lohs := go!"0"
    lahs := lahs
    mv := go!"0"
    bb := go!"0"
    cs := go!"0"
    fix := go!"0"
    vld := go!"1" }

def hemiRecs (lahs : Bytes) : List ServiceDataRecord :=
  [Ex.recO 24 7 [{ subrecordType := 16, subrecordLength := 21, subrecordData := some (.pos (hemiPos lahs)) }]]

/-- a packet from 55.55 degrees north -/
def north : Bytes :=
  [1, 0, 0, 11, 0, 35, 0, 5, 0, 1, 246, 24, 0, 7, 0, 1, 5, 0, 0, 0, 2, 2, 16, 21, 0, 1, 0, 0, 0, 222, 232, 4, 158, 0, 224, 103, 53, 1, 0, 0,
   0, 0, 0, 0, 0, 0, 200, 35]

/-- and one from 55.55 degrees south -/
def south : Bytes :=
  [1, 0, 0, 11, 0, 35, 0, 5, 0, 1, 246, 24, 0, 7, 0, 1, 5, 0, 0, 0, 2, 2, 16, 21, 0, 1, 0, 0, 0, 222, 232, 4, 158, 0, 224, 103, 53, 33, 0, 0,
   0, 0, 0, 0, 0, 0, 52, 132]

set_option maxRecDepth 40000 in
theorem north_accepts (env : Env) (sp : Bytes) : Accepts env ⟨north, sp⟩ (Ex.pkg 35 246 9160 (hemiRecs (go!"0"))) (hemiRecs (go!"0")) :=
  ⟨accept_spare env none {} (by with_unfolding_all rfl), rfl, rfl⟩

set_option maxRecDepth 40000 in
theorem south_accepts (env : Env) (sp : Bytes) : Accepts env ⟨south, sp⟩ (Ex.pkg 35 246 33844 (hemiRecs (go!"1"))) (hemiRecs (go!"1")) :=
  ⟨accept_spare env none {} (by with_unfolding_all rfl), rfl, rfl⟩

/-- C68 is false: two accepted packets, one from north and one from south of the equator, for which the very same record is saved. -/
theorem C68_false (env : Env) : ∃ (f g : Bytes) (a b : List ServiceDataRecord) (x y : SrPosData), WellFramed f ∧ WellFramed g ∧
    positions a = [x] ∧ positions b = [y] ∧ 50 < x.signedLatitude ∧ y.signedLatitude < -50 ∧
    ∀ now client sp, (∃ p, Accepts env ⟨f, sp⟩ p a) ∧ (∃ p, Accepts env ⟨g, sp⟩ p b) ∧
      (saves (handlePacket env now client ⟨f, sp⟩).effs).length = 1 ∧
      saves (handlePacket env now client ⟨f, sp⟩).effs = saves (handlePacket env now client ⟨g, sp⟩).effs := by
  refine ⟨north, south, hemiRecs (go!"0"), hemiRecs (go!"1"), hemiPos (go!"0"), hemiPos (go!"1"), by decide, by decide, rfl, rfl,
    by decide +kernel, by decide +kernel, fun now client sp => ⟨⟨_, north_accepts env sp⟩, ⟨_, south_accepts env sp⟩, ?_, ?_⟩⟩
  · rw [C48_saved env now client _ _ _ (north_accepts env sp)]
    rfl
  · rw [C48_saved env now client _ _ _ (north_accepts env sp), C48_saved env now client _ _ _ (south_accepts env sp)]
    rfl

/-- Exactly: wherever the position is, what is saved are its coordinates without their signs. -/
theorem C68_magnitudes (env : Env) (now : Int) (client : UInt32) (pkt : Slice) (p : Package) (recs : List ServiceDataRecord)
    (h : Accepts env pkt p recs) :
    ∀ r ∈ saves (handlePacket env now client pkt).effs, ∃ d ∈ positions recs, r.latitude = |d.signedLatitude| ∧ r.longitude = |d.signedLongitude| := by
  intro r hr
  obtain ⟨⟨p1, _⟩, ⟨p2, _⟩, _⟩ := C67_plausible env now client pkt r hr
  rw [C48_saved env now client pkt p recs h] at hr
  obtain ⟨rec, hrec, x, hx, d, hd, cl, rfl⟩ := stored_mem hr
  have hd' : d ∈ positions recs := List.mem_flatMap.mpr ⟨rec, (List.takeWhile_sublist _).subset hrec, List.mem_filterMap.mpr ⟨x, hx, hd⟩⟩
  refine ⟨d, hd', ?_⟩
  have q1 : (0 : Rat) ≤ d.latitude := p1
  have q2 : (0 : Rat) ≤ d.longitude := p2
  unfold SrPosData.signedLatitude SrPosData.signedLongitude
  constructor
  · show d.latitude = _
    split
    · rw [abs_neg, abs_of_nonneg q1]
    · rw [abs_of_nonneg q1]
  · show d.longitude = _
    split
    · rw [abs_neg, abs_of_nonneg q2]
    · rw [abs_of_nonneg q2]

/-- In the north-east quarter of the globe what is saved are the signed coordinates of a position of the packet. -/
theorem C68_northeast_partial (env : Env) (now : Int) (client : UInt32) (pkt : Slice) (p : Package) (recs : List ServiceDataRecord)
    (h : Accepts env pkt p recs) (hq : ∀ d ∈ positions recs, d.lahs = go!"0" ∧ d.lohs = go!"0") :
    ∀ r ∈ saves (handlePacket env now client pkt).effs, ∃ d ∈ positions recs, r.latitude = d.signedLatitude ∧ r.longitude = d.signedLongitude := by
  intro r hr
  rw [C48_saved env now client pkt p recs h] at hr
  obtain ⟨rec, hrec, x, hx, d, hd, cl, rfl⟩ := stored_mem hr
  have hd' : d ∈ positions recs := List.mem_flatMap.mpr ⟨rec, (List.takeWhile_sublist _).subset hrec, List.mem_filterMap.mpr ⟨x, hx, hd⟩⟩
  refine ⟨d, hd', ?_⟩
  obtain ⟨h1, h2⟩ := hq d hd'
  unfold SrPosData.signedLatitude SrPosData.signedLongitude
  rw [h1, h2]
  exact ⟨rfl, rfl⟩

example (env : Env) (sp : Bytes) : Accepts env ⟨north, sp⟩ (Ex.pkg 35 246 9160 (hemiRecs (go!"0"))) (hemiRecs (go!"0")) ∧
    ∀ d ∈ positions (hemiRecs (go!"0")), d.lahs = go!"0" ∧ d.lohs = go!"0" :=
  ⟨north_accepts env sp, by
    intro d hd
    have : positions (hemiRecs (go!"0")) = [hemiPos (go!"0")] := rfl
    rw [this, List.mem_singleton] at hd
    subst hd
    exact ⟨rfl, rfl⟩⟩

end Egts
