import Verif.Proofs.JsonNav

/-! # Reading indented texts -/

namespace Egts
open Json

theorem skipWs_append {ws : Bytes} (h : ∀ c ∈ ws, isWs c = true) (b : Bytes) : skipWs (ws ++ b) = skipWs b := by
  induction ws with
  | nil => rfl
  | cons c ws ih =>
    rw [List.cons_append, skipWs, List.dropWhile_cons_of_pos (h c (List.mem_cons_self ..))]
    exact ih (fun x hx => h x (List.mem_cons_of_mem _ hx))

theorem newline_ws (d : Nat) : ∀ c ∈ newline d, isWs c = true := by
  intro c hc
  rcases List.mem_cons.mp hc with rfl | hc
  · rfl
  · rw [List.eq_of_mem_replicate hc]; rfl

theorem parseValue_ws {ws : Bytes} (h : ∀ c ∈ ws, isWs c = true) (n : Nat) (b : Bytes) : parseValue n (ws ++ b) = parseValue n b := by
  cases n with
  | zero => rfl
  | succ n => unfold parseValue; rw [skipWs_append h]

theorem parseElems_ws {ws : Bytes} (h : ∀ c ∈ ws, isWs c = true) (n : Nat) (b : Bytes) : parseElems n (ws ++ b) = parseElems n b := by
  cases n with
  | zero => rfl
  | succ n => unfold parseElems; rw [parseValue_ws h]

theorem parseMembers_ws {ws : Bytes} (h : ∀ c ∈ ws, isWs c = true) (n : Nat) (b : Bytes) : parseMembers n (ws ++ b) = parseMembers n b := by
  cases n with
  | zero => rfl
  | succ n => unfold parseMembers; unfold parseString; rw [skipWs_append h]

theorem intercalate_cons' (s a b : Bytes) (l : List Bytes) :
    s.intercalate (a :: b :: l) = a ++ (s ++ s.intercalate (b :: l)) := by
  simp [List.intercalate]

theorem skipWs_newline (d : Nat) {c : UInt8} (hc : isWs c = false) (r : Bytes) : skipWs (newline d ++ c :: r) = c :: r := by
  rw [skipWs_append (newline_ws d), skipWs_cons hc]

theorem parseElems_ind {c : Nat} (d : Nat) :
    ∀ (es : List (Bytes × Value)), es ≠ [] → (∀ e ∈ es, Reads e.1 e.2 c) → ∀ n, c + es.length ≤ n → ∀ rest,
      parseElems n ((44 :: newline (d + 1)).intercalate (es.map (·.1)) ++ (newline d ++ 93 :: rest)) = some (es.map (·.2), rest) := by
  intro es
  induction es with
  | nil => intro h; exact absurd rfl h
  | cons e es ih =>
    intro _ h n hn rest
    obtain ⟨k, rfl⟩ : ∃ k, n = k + 1 := ⟨n - 1, by simp at hn; omega⟩
    simp only [List.length_cons] at hn
    have he := h e (List.mem_cons_self ..)
    cases es with
    | nil =>
      have := he.reads k (by omega) (newline d ++ 93 :: rest) (delim_newline _)
      simp only [List.map_cons, List.map_nil, List.intercalate, List.intersperse_singleton, List.flatten_cons, List.flatten_nil,
        List.append_nil]
      unfold parseElems
      rw [this]
      simp only
      rw [skipWs_newline d rfl]
      rfl
    | cons e2 es =>
      have h2 := ih (by simp) (fun x hx => h x (List.mem_cons_of_mem _ hx)) k (by simp at hn ⊢; omega) rest
      simp only [List.map_cons] at h2 ⊢
      rw [intercalate_cons', List.append_assoc, List.append_assoc, List.cons_append]
      unfold parseElems
      rw [he.reads k (by omega) _ (delim_comma _)]
      simp only
      rw [skipWs_cons rfl]
      simp only
      rw [parseElems_ws (newline_ws _), h2]
      rfl

theorem reads_indSlice {c : Nat} (d : Nat) {es : List (Bytes × Value)} (hne : es ≠ []) (h : ∀ e ∈ es, Reads e.1 e.2 c) :
    Reads (indSlice d (es.map (·.1))) (.arr (es.map (·.2))) (c + es.length + 1) := by
  have hne' : es.map (·.1) ≠ [] := by simpa using hne
  unfold indSlice
  rw [if_neg hne']
  refine ⟨⟨91, _, rfl, rfl, by decide⟩, fun n hn rest _ => ?_⟩
  obtain ⟨k, rfl⟩ : ∃ k, n = k + 1 := ⟨n - 1, by omega⟩
  have hp := parseElems_ind d es hne h k (by omega) rest
  have hst : ∃ a r, (44 :: newline (d + 1)).intercalate (es.map (·.1)) ++ (newline d ++ 93 :: rest) = a :: r ∧ isWs a = false ∧ a ≠ 93 := by
    cases es with
    | nil => exact absurd rfl hne
    | cons e es =>
      obtain ⟨a, r, h1, h2, h3⟩ := (h e (List.mem_cons_self ..)).start
      cases es with
      | nil => exact ⟨a, r ++ (newline d ++ 93 :: rest), by simp [List.intercalate, h1], h2, h3⟩
      | cons e2 es =>
        refine ⟨a, ?_, ?_, h2, h3⟩
        · exact r ++ ((44 :: newline (d + 1)) ++ (44 :: newline (d + 1)).intercalate ((e2 :: es).map (·.1))) ++ (newline d ++ 93 :: rest)
        · simp only [List.map_cons]; rw [intercalate_cons', h1]; simp
  obtain ⟨a, r, h1, h2, h3⟩ := hst
  rw [show [91] ++ newline (d + 1) ++ (44 :: newline (d + 1)).intercalate (es.map (·.1)) ++ newline d ++ [93] ++ rest =
    91 :: (newline (d + 1) ++ ((44 :: newline (d + 1)).intercalate (es.map (·.1)) ++ (newline d ++ 93 :: rest))) by simp]
  rw [h1] at hp ⊢
  show (match skipWs (newline (d + 1) ++ a :: r) with
    | 93 :: r => some (Value.arr [], r)
    | _ => (parseElems k (newline (d + 1) ++ a :: r)).map (fun p : List Value × Bytes => (.arr p.1, p.2))) = _
  rw [skipWs_newline _ h2, parseElems_ws (newline_ws _), hp]
  split
  · rename_i heq; injection heq with h _; exact absurd h h3
  · rfl

theorem parseMembers_ind {c : Nat} (d : Nat) :
    ∀ (ms : List (Bytes × Bytes × Value)), ms ≠ [] → (∀ m ∈ ms, IsAscii m.1 ∧ Reads m.2.1 m.2.2 c) → ∀ n, c + ms.length ≤ n → ∀ rest,
      parseMembers n ((44 :: newline (d + 1)).intercalate (ms.map (fun m => jsonString m.1 ++ [58, 32] ++ m.2.1)) ++ (newline d ++ 125 :: rest)) =
        some (ms.map (fun m => (m.1, m.2.2)), rest) := by
  intro ms
  induction ms with
  | nil => intro h; exact absurd rfl h
  | cons e ms ih =>
    intro _ h n hn rest
    obtain ⟨k, rfl⟩ : ∃ k, n = k + 1 := ⟨n - 1, by simp at hn; omega⟩
    simp only [List.length_cons] at hn
    obtain ⟨hk, he⟩ := h e (List.mem_cons_self ..)
    have h58 : ∀ r : Bytes, skipWs (58 :: r) = 58 :: r := fun _ => rfl
    have h32 : ∀ r : Bytes, parseValue k (32 :: r) = parseValue k r := fun r => parseValue_ws (ws := [32]) (by decide) k r
    cases ms with
    | nil =>
      have := he.reads k (by omega) (newline d ++ 125 :: rest) (delim_newline _)
      simp only [List.map_cons, List.map_nil, List.intercalate, List.intersperse_singleton, List.flatten_cons, List.flatten_nil,
        List.append_nil]
      unfold parseMembers
      rw [List.append_assoc, List.append_assoc, parseString_jsonString hk]
      simp only [List.cons_append, List.nil_append, h58]
      rw [h32, this]
      simp only
      rw [skipWs_newline d rfl]
      rfl
    | cons e2 ms =>
      have h2 := ih (by simp) (fun x hx => h x (List.mem_cons_of_mem _ hx)) k (by simp at hn ⊢; omega) rest
      simp only [List.map_cons] at h2 ⊢
      rw [intercalate_cons', List.append_assoc, List.append_assoc, List.append_assoc, List.append_assoc, List.cons_append]
      unfold parseMembers
      rw [parseString_jsonString hk]
      simp only [List.cons_append, List.nil_append, h58]
      rw [h32, he.reads k (by omega) _ (delim_comma _)]
      simp only
      rw [skipWs_cons rfl]
      simp only
      rw [parseMembers_ws (newline_ws _), h2]
      rfl

theorem reads_indObject {c : Nat} (d : Nat) {ms : List (Bytes × Bytes × Value)} (hne : ms ≠ [])
    (h : ∀ m ∈ ms, IsAscii m.1 ∧ Reads m.2.1 m.2.2 c) :
    Reads (indObject d (ms.map (fun m => (m.1, m.2.1)))) (.obj (ms.map (fun m => (m.1, m.2.2)))) (c + ms.length + 1) := by
  unfold indObject
  rw [List.map_map]
  refine ⟨⟨123, _, rfl, rfl, by decide⟩, fun n hn rest _ => ?_⟩
  obtain ⟨k, rfl⟩ : ∃ k, n = k + 1 := ⟨n - 1, by omega⟩
  have hp := parseMembers_ind d ms hne h k (by omega) rest
  have hst : ∃ r, (44 :: newline (d + 1)).intercalate (ms.map (fun m => jsonString m.1 ++ [58, 32] ++ m.2.1)) ++ (newline d ++ 125 :: rest) = 34 :: r := by
    cases ms with
    | nil => exact absurd rfl hne
    | cons e ms =>
      cases ms with
      | nil => exact ⟨_, by simp [List.intercalate, jsonString]; rfl⟩
      | cons e2 ms => exact ⟨_, by simp only [List.map_cons]; rw [intercalate_cons']; simp [jsonString]; rfl⟩
  obtain ⟨r, h1⟩ := hst
  rw [show [123] ++ newline (d + 1) ++ (44 :: newline (d + 1)).intercalate
      (ms.map ((fun m => jsonString m.1 ++ [58, 32] ++ m.2) ∘ fun m => (m.1, m.2.1))) ++ newline d ++ [125] ++ rest =
    123 :: (newline (d + 1) ++ ((44 :: newline (d + 1)).intercalate (ms.map (fun m => jsonString m.1 ++ [58, 32] ++ m.2.1)) ++ (newline d ++ 125 :: rest)))
    by simp [Function.comp_def]]
  rw [h1] at hp ⊢
  show (match skipWs (newline (d + 1) ++ 34 :: r) with
    | 125 :: r => some (Value.obj [], r)
    | _ => (parseMembers k (newline (d + 1) ++ 34 :: r)).map (fun p : List (Bytes × Value) × Bytes => (.obj p.1, p.2))) = _
  rw [skipWs_newline _ rfl, parseMembers_ws (newline_ws _), hp]
  rfl

theorem AnSensor.reads_indented (d : Nat) (s : AnSensor) : Reads (s.indented d) s.value' 6 := by
  have := reads_indObject (c := 1) d
    (ms := [(go!"sensor_number", decNat s.sensorNumber.toNat, .num (s.sensorNumber.toNat : ℚ)),
      (go!"value", decNat s.value.toNat, .num (s.value.toNat : ℚ))]) (by simp) (by
        intro m hm
        simp only [List.mem_cons, List.not_mem_nil, or_false] at hm
        rcases hm with rfl | rfl
        · exact ⟨by unfold IsAscii; dsimp only; decide, reads_decNat _⟩
        · exact ⟨by unfold IsAscii; dsimp only; decide, reads_decNat _⟩)
  exact this.mono (by simp)

theorem LiquidSensor.reads_indented (d : Nat) (s : LiquidSensor) (h : IsAscii s.errorFlag) : Reads (s.indented d) s.value' 6 := by
  have := reads_indObject (c := 1) d
    (ms := [(go!"sensor_number", decNat s.sensorNumber.toNat, .num (s.sensorNumber.toNat : ℚ)),
      (go!"error_flag", jsonString s.errorFlag, .str s.errorFlag),
      (go!"value_mm", decNat s.valueMm.toNat, .num (s.valueMm.toNat : ℚ)),
      (go!"value_l", decNat s.valueL.toNat, .num (s.valueL.toNat : ℚ))]) (by simp) (by
        intro m hm
        simp only [List.mem_cons, List.not_mem_nil, or_false] at hm
        rcases hm with rfl | rfl | rfl | rfl
        · exact ⟨by unfold IsAscii; dsimp only; decide, reads_decNat _⟩
        · exact ⟨by unfold IsAscii; dsimp only; decide, reads_jsonString h⟩
        · exact ⟨by unfold IsAscii; dsimp only; decide, reads_decNat _⟩
        · exact ⟨by unfold IsAscii; dsimp only; decide, reads_decNat _⟩)
  exact this.mono (by simp)

theorem reads_slice_indented {α : Type} (d : Nat) (f : α → Bytes) (g : α → Value) (l : List α) (h : ∀ x ∈ l, Reads (f x) (g x) 6) :
    Reads (indSlice d (l.map f)) (listValue (l.map g)) (7 + l.length) := by
  unfold listValue
  by_cases hl : l = []
  · subst hl
    exact reads_null.mono (by simp)
  · have := reads_indSlice (c := 6) d (es := l.map (fun x => (f x, g x))) (by simpa using hl) (by
      intro e he
      obtain ⟨x, hx, rfl⟩ := List.mem_map.mp he
      exact h x hx)
    simp only [List.map_map, Function.comp_def, List.length_map] at this
    rw [if_neg (by simpa using hl)]
    exact this.mono (by omega)

theorem indSlice_length (d : Nat) {es : List Bytes} : es.length ≤ (indSlice d es).length + 1 := by
  unfold indSlice
  split
  · rename_i h; subst h; simp
  · have key : ∀ es : List Bytes, es.length ≤ ((44 :: newline (d + 1) : Bytes).intercalate es).length + 1 := by
      intro es
      induction es with
      | nil => simp
      | cons a es ih =>
        cases es with
        | nil => simp
        | cons b es =>
          rw [intercalate_cons']
          simp only [List.length_append, List.length_cons] at ih ⊢
          omega
    have := key es
    simp only [List.length_append, List.length_cons, List.length_nil]
    omega

theorem NavRecord.reads_indented (r : NavRecord) (h : r.Ok) :
    ∃ lat lon, rnd lat = r.latitude ∧ rnd lon = r.longitude ∧
      Reads r.indented (r.value lat lon) (23 + r.anSensors.length + r.liquidSensors.length) := by
  obtain ⟨lat, h1, h2⟩ := reads_jsonFloat h.latitude
  obtain ⟨lon, h3, h4⟩ := reads_jsonFloat h.longitude
  refine ⟨lat, lon, h1, h3, ?_⟩
  have ha := reads_slice_indented 1 (AnSensor.indented 2) AnSensor.value' r.anSensors (fun s _ => s.reads_indented 2)
  have hl := reads_slice_indented 1 (LiquidSensor.indented 2) LiquidSensor.value' r.liquidSensors (fun s hs => s.reads_indented 2 (h.flags s hs))
  have := reads_indObject (c := 7 + r.anSensors.length + r.liquidSensors.length) 0
    (ms := [(go!"client", decNat r.client.toNat, .num (r.client.toNat : ℚ)), (go!"packet_id", decNat r.packetID.toNat, .num (r.packetID.toNat : ℚ)),
     (go!"navigation_unix_time", decInt r.navigationTimestamp, .num (r.navigationTimestamp : ℚ)),
     (go!"received_unix_time", decInt r.receivedTimestamp, .num (r.receivedTimestamp : ℚ)),
     (go!"latitude", jsonFloat r.latitude, .num lat), (go!"longitude", jsonFloat r.longitude, .num lon),
     (go!"speed", decNat r.speed.toNat, .num (r.speed.toNat : ℚ)), (go!"pdop", decNat r.pdop.toNat, .num (r.pdop.toNat : ℚ)),
     (go!"hdop", decNat r.hdop.toNat, .num (r.hdop.toNat : ℚ)),
     (go!"vdop", decNat r.vdop.toNat, .num (r.vdop.toNat : ℚ)), (go!"nsat", decNat r.nsat.toNat, .num (r.nsat.toNat : ℚ)),
     (go!"ns", decNat r.ns.toNat, .num (r.ns.toNat : ℚ)),
     (go!"course", decNat r.course.toNat, .num (r.course.toNat : ℚ)),
     (go!"an_sensors", indSlice 1 (r.anSensors.map (AnSensor.indented 2)), listValue (r.anSensors.map AnSensor.value')),
     (go!"liquid_sensors", indSlice 1 (r.liquidSensors.map (LiquidSensor.indented 2)), listValue (r.liquidSensors.map LiquidSensor.value'))])
    (by simp) (by
      intro m hm
      simp only [List.mem_cons, List.not_mem_nil, or_false] at hm
      rcases hm with rfl | rfl | rfl | rfl | rfl | rfl | rfl | rfl | rfl | rfl | rfl | rfl | rfl | rfl | rfl
      all_goals refine ⟨by unfold IsAscii; dsimp only; decide, ?_⟩
      · exact (reads_decNat _).mono (by omega)
      · exact (reads_decNat _).mono (by omega)
      · exact (reads_decInt _).mono (by omega)
      · exact (reads_decInt _).mono (by omega)
      · exact h2.mono (by omega)
      · exact h4.mono (by omega)
      · exact (reads_decNat _).mono (by omega)
      · exact (reads_decNat _).mono (by omega)
      · exact (reads_decNat _).mono (by omega)
      · exact (reads_decNat _).mono (by omega)
      · exact (reads_decNat _).mono (by omega)
      · exact (reads_decNat _).mono (by omega)
      · exact (reads_decNat _).mono (by omega)
      · exact ha.mono (by omega)
      · exact hl.mono (by omega))
  exact this.mono (by simp; omega)

theorem NavRecord.indented_length (r : NavRecord) :
    23 + r.anSensors.length + r.liquidSensors.length ≤ r.indented.length + 1 := by
  have h1 := indSlice_length 1 (es := r.anSensors.map (AnSensor.indented 2))
  have h2 := indSlice_length 1 (es := r.liquidSensors.map (LiquidSensor.indented 2))
  rw [List.length_map] at h1 h2
  unfold NavRecord.indented indObject
  simp only [List.map_cons, List.map_nil, intercalate_cons', List.length_append, List.length_cons, List.length_nil]
  simp only [List.intercalate, List.intersperse_singleton, List.flatten_cons, List.flatten_nil, List.append_nil, List.length_append,
    List.length_cons, List.length_nil]
  omega

theorem readNav_indented (r : NavRecord) (h : r.Ok) : readNav r.indented = some r := by
  obtain ⟨lat, lon, h1, h2, h3⟩ := r.reads_indented h
  unfold readNav
  rw [parseJson_of h3 r.indented_length, Option.bind_some]
  exact readNavValue_eq r lat lon h1 h2

end Egts
