import Verif.Proofs.JsonRead

/-! # Reading stored records back: the record -/

namespace Egts
open Json

theorem AnSensor.reads (s : AnSensor) :
    Reads s.toJson (.obj [(go!"sensor_number", .num (s.sensorNumber.toNat : ℚ)), (go!"value", .num (s.value.toNat : ℚ))]) 6 := by
  have := reads_jsonObject (c := 1)
    (ms := [(go!"sensor_number", decNat s.sensorNumber.toNat, .num (s.sensorNumber.toNat : ℚ)),
      (go!"value", decNat s.value.toNat, .num (s.value.toNat : ℚ))]) (by simp) (by
        intro m hm
        simp only [List.mem_cons, List.not_mem_nil, or_false] at hm
        rcases hm with rfl | rfl
        · exact ⟨by unfold IsAscii; dsimp only; decide, reads_decNat _⟩
        · exact ⟨by unfold IsAscii; dsimp only; decide, reads_decNat _⟩)
  exact this.mono (by simp)

theorem LiquidSensor.reads (s : LiquidSensor) (h : IsAscii s.errorFlag) :
    Reads s.toJson (.obj [(go!"sensor_number", .num (s.sensorNumber.toNat : ℚ)), (go!"error_flag", .str s.errorFlag),
      (go!"value_mm", .num (s.valueMm.toNat : ℚ)), (go!"value_l", .num (s.valueL.toNat : ℚ))]) 6 := by
  have := reads_jsonObject (c := 1)
    (ms := [(go!"sensor_number", decNat s.sensorNumber.toNat, .num (s.sensorNumber.toNat : ℚ)),
      (go!"error_flag", jsonString s.errorFlag, .str s.errorFlag),
      (go!"value_mm", decNat s.valueMm.toNat, .num (s.valueMm.toNat : ℚ)),
      (go!"value_l", decNat s.valueL.toNat, .num (s.valueL.toNat : ℚ))]) (by simp) (by
        intro m hm
        simp only [List.mem_cons, List.not_mem_nil, or_false] at hm
        rcases hm with rfl | rfl | rfl | rfl
        · exact ⟨by unfold IsAscii; dsimp only; decide, reads_decNat _⟩
        · exact ⟨by unfold IsAscii; dsimp only; decide, reads_jsonString h⟩
        · exact ⟨by unfold IsAscii; dsimp only; decide, reads_decNat _⟩
        · exact ⟨by unfold IsAscii; dsimp only; decide, reads_decNat _⟩)
  exact this.mono (by simp)

/-- What a list of objects is read as. -/
def listValue (vs : List Value) : Value := if vs = [] then .null else .arr vs

theorem asNat_num (n b : Nat) (h : n < b) : (Value.num (n : ℚ)).asNat b = some n := by
  simp [Value.asNat, Value.asInt, h]

theorem asInt_num (i : Int) : (Value.num (i : ℚ)).asInt = some i := by
  simp [Value.asInt]

theorem readU8_eq {v : Value} {key : Bytes} (x : UInt8) (h : v.get key = some (.num (x.toNat : ℚ))) : readU8 v key = some x := by
  have hx : x.toNat < 256 := by have := x.toNat_lt; norm_num at this; exact this
  unfold readU8
  rw [h, Option.bind_eq_bind, Option.bind_some, asNat_num _ _ hx, Option.map_some, UInt8.ofNat_toNat]

theorem readU16_eq {v : Value} {key : Bytes} (x : UInt16) (h : v.get key = some (.num (x.toNat : ℚ))) : readU16 v key = some x := by
  have hx : x.toNat < 65536 := by have := x.toNat_lt; norm_num at this; exact this
  unfold readU16
  rw [h, Option.bind_eq_bind, Option.bind_some, asNat_num _ _ hx, Option.map_some, UInt16.ofNat_toNat]

theorem readU32_eq {v : Value} {key : Bytes} (x : UInt32) (h : v.get key = some (.num (x.toNat : ℚ))) : readU32 v key = some x := by
  have hx : x.toNat < 4294967296 := by have := x.toNat_lt; norm_num at this; exact this
  unfold readU32
  rw [h, Option.bind_eq_bind, Option.bind_some, asNat_num _ _ hx, Option.map_some, UInt32.ofNat_toNat]

/-- The object an analog sensor is written as. -/
def AnSensor.value' (s : AnSensor) : Value :=
  .obj [(go!"sensor_number", .num (s.sensorNumber.toNat : ℚ)), (go!"value", .num (s.value.toNat : ℚ))]

/-- The object a liquid sensor is written as. -/
def LiquidSensor.value' (s : LiquidSensor) : Value :=
  .obj [(go!"sensor_number", .num (s.sensorNumber.toNat : ℚ)), (go!"error_flag", .str s.errorFlag),
      (go!"value_mm", .num (s.valueMm.toNat : ℚ)), (go!"value_l", .num (s.valueL.toNat : ℚ))]

theorem readAnSensor_eq (s : AnSensor) : readAnSensor s.value' = some s := by
  have h1 : readU8 s.value' (go!"sensor_number") = some s.sensorNumber := readU8_eq _ rfl
  have h2 : readU32 s.value' (go!"value") = some s.value := readU32_eq _ rfl
  simp [readAnSensor, h1, h2]

theorem readLiquidSensor_eq (s : LiquidSensor) : readLiquidSensor s.value' = some s := by
  have h1 : readU8 s.value' (go!"sensor_number") = some s.sensorNumber := readU8_eq _ rfl
  have h2 : s.value'.get (go!"error_flag") = some (.str s.errorFlag) := rfl
  have h3 : readU32 s.value' (go!"value_mm") = some s.valueMm := readU32_eq _ rfl
  have h4 : readU32 s.value' (go!"value_l") = some s.valueL := readU32_eq _ rfl
  simp [readLiquidSensor, h1, h2, h3, h4, Value.asString]

/-- The object a record is written as, given the numbers the coordinates are written as. -/
def NavRecord.value (r : NavRecord) (lat lon : ℚ) : Value :=
  .obj
    [(go!"client", .num (r.client.toNat : ℚ)), (go!"packet_id", .num (r.packetID.toNat : ℚ)),
     (go!"navigation_unix_time", .num (r.navigationTimestamp : ℚ)), (go!"received_unix_time", .num (r.receivedTimestamp : ℚ)),
     (go!"latitude", .num lat), (go!"longitude", .num lon),
     (go!"speed", .num (r.speed.toNat : ℚ)), (go!"pdop", .num (r.pdop.toNat : ℚ)), (go!"hdop", .num (r.hdop.toNat : ℚ)),
     (go!"vdop", .num (r.vdop.toNat : ℚ)), (go!"nsat", .num (r.nsat.toNat : ℚ)), (go!"ns", .num (r.ns.toNat : ℚ)),
     (go!"course", .num (r.course.toNat : ℚ)), (go!"an_sensors", listValue (r.anSensors.map AnSensor.value')),
     (go!"liquid_sensors", listValue (r.liquidSensors.map LiquidSensor.value'))]

theorem listValue_asList (vs : List Value) : (listValue vs).asList = some vs := by
  unfold listValue
  split
  · rename_i h; subst h; rfl
  · rfl

theorem mapM_value {α : Type} (f : α → Value) (g : Value → Option α) (h : ∀ x, g (f x) = some x) (l : List α) :
    (l.map f).mapM g = some l := by
  induction l with
  | nil => rfl
  | cons x l ih => simp [h, ih]

theorem readNavValue_eq (r : NavRecord) (lat lon : ℚ) (h1 : rnd lat = r.latitude) (h2 : rnd lon = r.longitude) :
    readNavValue (r.value lat lon) = some r := by
  have e1 : readU32 (r.value lat lon) (go!"client") = some r.client := readU32_eq _ rfl
  have e2 : readU32 (r.value lat lon) (go!"packet_id") = some r.packetID := readU32_eq _ rfl
  have e3 : (r.value lat lon).get (go!"navigation_unix_time") = some (.num (r.navigationTimestamp : ℚ)) := rfl
  have e4 : (r.value lat lon).get (go!"received_unix_time") = some (.num (r.receivedTimestamp : ℚ)) := rfl
  have e5 : (r.value lat lon).get (go!"latitude") = some (.num lat) := rfl
  have e6 : (r.value lat lon).get (go!"longitude") = some (.num lon) := rfl
  have e7 : readU16 (r.value lat lon) (go!"speed") = some r.speed := readU16_eq _ rfl
  have e8 : readU16 (r.value lat lon) (go!"pdop") = some r.pdop := readU16_eq _ rfl
  have e9 : readU16 (r.value lat lon) (go!"hdop") = some r.hdop := readU16_eq _ rfl
  have e10 : readU16 (r.value lat lon) (go!"vdop") = some r.vdop := readU16_eq _ rfl
  have e11 : readU8 (r.value lat lon) (go!"nsat") = some r.nsat := readU8_eq _ rfl
  have e12 : readU16 (r.value lat lon) (go!"ns") = some r.ns := readU16_eq _ rfl
  have e13 : readU8 (r.value lat lon) (go!"course") = some r.course := readU8_eq _ rfl
  have e14 : (r.value lat lon).get (go!"an_sensors") = some (listValue (r.anSensors.map AnSensor.value')) := rfl
  have e15 : (r.value lat lon).get (go!"liquid_sensors") = some (listValue (r.liquidSensors.map LiquidSensor.value')) := rfl
  simp only [readNavValue, e1, e2, e3, e4, e5, e6, e7, e8, e9, e10, e11, e12, e13, e14, e15, Option.bind_eq_bind, Option.bind_some,
    asInt_num, Value.asFloat, h1, h2, listValue_asList, mapM_value _ _ readAnSensor_eq, mapM_value _ _ readLiquidSensor_eq,
    Option.pure_def]

theorem reads_slice {α : Type} (f : α → Bytes) (g : α → Value) (l : List α) (h : ∀ x ∈ l, Reads (f x) (g x) 6) :
    Reads (jsonSlice (l.map f)) (listValue (l.map g)) (7 + l.length) := by
  unfold listValue
  by_cases hl : l = []
  · subst hl
    exact reads_null.mono (by simp)
  · have := reads_jsonSlice (c := 6) (es := l.map (fun x => (f x, g x))) (by simpa using hl) (by
      intro e he
      obtain ⟨x, hx, rfl⟩ := List.mem_map.mp he
      exact h x hx)
    simp only [List.map_map, Function.comp_def, List.length_map] at this
    rw [if_neg (by simpa using hl)]
    exact this.mono (by omega)

theorem jsonSlice_length {es : List Bytes} : es.length ≤ (jsonSlice es).length + 1 := by
  unfold jsonSlice
  split
  · rename_i h; subst h; simp
  · have key : ∀ es : List Bytes, es.length ≤ (([44] : Bytes).intercalate es).length + 1 := by
      intro es
      induction es with
      | nil => simp
      | cons a es ih =>
        cases es with
        | nil => simp
        | cons b es =>
          rw [intercalate_cons]
          simp only [List.length_append, List.length_cons] at ih ⊢
          omega
    have := key es
    simp only [List.length_append, List.length_cons, List.length_nil]
    omega

theorem NavRecord.reads (r : NavRecord) (h : r.Ok) :
    ∃ lat lon, rnd lat = r.latitude ∧ rnd lon = r.longitude ∧
      Reads r.toBytes (r.value lat lon) (23 + r.anSensors.length + r.liquidSensors.length) := by
  obtain ⟨lat, h1, h2⟩ := reads_jsonFloat h.latitude
  obtain ⟨lon, h3, h4⟩ := reads_jsonFloat h.longitude
  refine ⟨lat, lon, h1, h3, ?_⟩
  have ha := reads_slice AnSensor.toJson AnSensor.value' r.anSensors (fun s _ => s.reads)
  have hl := reads_slice LiquidSensor.toJson LiquidSensor.value' r.liquidSensors (fun s hs => s.reads (h.flags s hs))
  have := reads_jsonObject (c := 7 + r.anSensors.length + r.liquidSensors.length)
    (ms := [(go!"client", decNat r.client.toNat, .num (r.client.toNat : ℚ)), (go!"packet_id", decNat r.packetID.toNat, .num (r.packetID.toNat : ℚ)),
     (go!"navigation_unix_time", decInt r.navigationTimestamp, .num (r.navigationTimestamp : ℚ)),
     (go!"received_unix_time", decInt r.receivedTimestamp, .num (r.receivedTimestamp : ℚ)),
     (go!"latitude", jsonFloat r.latitude, .num lat), (go!"longitude", jsonFloat r.longitude, .num lon),
     (go!"speed", decNat r.speed.toNat, .num (r.speed.toNat : ℚ)), (go!"pdop", decNat r.pdop.toNat, .num (r.pdop.toNat : ℚ)),
     (go!"hdop", decNat r.hdop.toNat, .num (r.hdop.toNat : ℚ)),
     (go!"vdop", decNat r.vdop.toNat, .num (r.vdop.toNat : ℚ)), (go!"nsat", decNat r.nsat.toNat, .num (r.nsat.toNat : ℚ)),
     (go!"ns", decNat r.ns.toNat, .num (r.ns.toNat : ℚ)),
     (go!"course", decNat r.course.toNat, .num (r.course.toNat : ℚ)),
     (go!"an_sensors", jsonSlice (r.anSensors.map AnSensor.toJson), listValue (r.anSensors.map AnSensor.value')),
     (go!"liquid_sensors", jsonSlice (r.liquidSensors.map LiquidSensor.toJson), listValue (r.liquidSensors.map LiquidSensor.value'))])
    (by simp) (by
      intro m hm
      simp only [List.mem_cons, List.not_mem_nil, or_false] at hm
      rcases hm with rfl | rfl | rfl | rfl | rfl | rfl | rfl | rfl | rfl | rfl | rfl | rfl | rfl | rfl | rfl
      all_goals refine ⟨by unfold IsAscii; dsimp only; decide, ?_⟩
      · exact (reads_decNat _).mono (by omega)
      · exact (reads_decNat _).mono (by omega)
      · exact (reads_decInt _).mono (by omega)
      · exact (reads_decInt _).mono (by omega)
      · exact h2.mono (by omega)
      · exact h4.mono (by omega)
      · exact (reads_decNat _).mono (by omega)
      · exact (reads_decNat _).mono (by omega)
      · exact (reads_decNat _).mono (by omega)
      · exact (reads_decNat _).mono (by omega)
      · exact (reads_decNat _).mono (by omega)
      · exact (reads_decNat _).mono (by omega)
      · exact (reads_decNat _).mono (by omega)
      · exact ha.mono (by omega)
      · exact hl.mono (by omega))
  exact this.mono (by simp; omega)

theorem NavRecord.toBytes_length (r : NavRecord) :
    23 + r.anSensors.length + r.liquidSensors.length ≤ r.toBytes.length + 1 := by
  have h1 := jsonSlice_length (es := r.anSensors.map AnSensor.toJson)
  have h2 := jsonSlice_length (es := r.liquidSensors.map LiquidSensor.toJson)
  rw [List.length_map] at h1 h2
  unfold NavRecord.toBytes jsonObject
  simp only [List.map_cons, List.map_nil, intercalate_cons, List.length_append, List.length_cons, List.length_nil]
  simp only [List.intercalate, List.intersperse_singleton, List.flatten_cons, List.flatten_nil, List.append_nil, List.length_append,
    List.length_cons, List.length_nil]
  omega

theorem parseJson_of {b : Bytes} {v : Value} {c : Nat} (h : Reads b v c) (hc : c ≤ b.length + 1) : parseJson b = some v := by
  have hp := h.reads (b.length + 1) hc [] (.inl rfl)
  rw [List.append_nil] at hp
  unfold parseJson
  rw [hp]
  rfl

theorem readNav_toBytes (r : NavRecord) (h : r.Ok) : readNav r.toBytes = some r := by
  obtain ⟨lat, lon, h1, h2, h3⟩ := r.reads h
  unfold readNav
  rw [parseJson_of h3 r.toBytes_length, Option.bind_some]
  exact readNavValue_eq r lat lon h1 h2

end Egts
