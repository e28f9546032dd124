import Verif.Proofs.Ack

/-! # The receiver's loops over subrecords, records and packets -/

set_option linter.unusedSimpArgs false

namespace Egts

theorem resultPkgOf_eq (env : Env) (pid : UInt16) : resultPkgOf env pid = .ok (resultPacket pid) := by
  unfold resultPkgOf
  rw [createSrResultCode_eq]

/-! ## Subrecords -/

theorem subLoop_append (env : Env) (pid : UInt16) (now : Int) (s : RecState) (a b : List RecordData) :
    subLoop env pid now s (a ++ b) = match subLoop env pid now s a with
      | .next s' => subLoop env pid now s' b
      | o => o := by
  induction a generalizing s with
  | nil => rfl
  | cons r a ih =>
    simp only [List.cons_append, subLoop]
    cases subStep env pid now s r with
    | next s' => exact ih s'
    | received s' => rfl
    | crash => rfl

/-- The analog sensors by filtering. -/
theorem adSensorList_eq (d : SrAdSensorsData) : adSensorList d =
    ([(1, d.asfe1, d.ans1), (2, d.asfe2, d.ans2), (3, d.asfe3, d.ans3), (4, d.asfe4, d.ans4), (5, d.asfe5, d.ans5),
      (6, d.asfe6, d.ans6), (7, d.asfe7, d.ans7), (8, d.asfe8, d.ans8)].filter (fun t => t.2.1 = go!"1")).map
      (fun t => { sensorNumber := t.1, value := t.2.2 }) := by
  have key : ∀ (t : UInt8 × Bytes × UInt32) (l : List (UInt8 × Bytes × UInt32)),
      ((t :: l).filter (fun t => t.2.1 = go!"1")).map (fun t => ({ sensorNumber := t.1, value := t.2.2 } : AnSensor)) =
      (if t.2.1 = one then [{ sensorNumber := t.1, value := t.2.2 }] else []) ++
        (l.filter (fun t => t.2.1 = go!"1")).map (fun t => { sensorNumber := t.1, value := t.2.2 }) := by
    intro t l
    by_cases h : t.2.1 = one
    · have h' : t.2.1 = go!"1" := h
      simp [h', one]
    · have h' : ¬ t.2.1 = go!"1" := h
      simp [h', one]
  rw [key, key, key, key, key, key, key, key]
  simp only [List.filter_nil, List.map_nil, List.append_nil]
  simp only [adSensorList, List.append_assoc]

theorem liquidOf_eq (d : SrLiquidLevelSensor) : liquidOf d =
    { sensorNumber := d.sensorNumber
      errorFlag := d.errorFlag
      valueMm := if d.valueUnit = go!"00" ∨ d.valueUnit = go!"01" then d.sensorData else 0
      valueL := if d.valueUnit = go!"10" then d.sensorData * 10 else 0 } := by
  unfold liquidOf
  by_cases h1 : d.valueUnit = go!"00" ∨ d.valueUnit = go!"01"
  · have h2 : ¬ d.valueUnit = go!"10" := by rcases h1 with h | h <;> rw [h] <;> decide
    simp only [if_pos h1, if_neg h2]
  · by_cases h2 : d.valueUnit = go!"10"
    · simp only [if_neg h1, if_pos h2]
    · simp only [if_neg h1, if_neg h2]

/-- The last counter value of either number, or 0. -/
def anyCounter (subs : List RecordData) : UInt32 := match (idCounters subs).getLast? with
  | some d => d.counterValue
  | none => 0

/-- The navigation record of `handleConn` after the subrecords, client not filled in. -/
def navAfter (pid : UInt16) (now : Int) (subs : List RecordData) : NavRecord :=
  match (subs.filterMap (·.pos?)).getLast? with
  | some d => storedAs now 0 (storedId pid subs) subs d
  | none =>
    { storedAs now 0 (storedId pid subs) subs {} with
      navigationTimestamp := 0
      receivedTimestamp := 0
      latitude := 0
      longitude := 0
      speed := 0
      course := 0 }

/-- The variables of `handleConn` after subrecords without a response. -/
def stateAfter (pid : UInt16) (now : Int) (client : UInt32) (res : Bytes) (subs : List RecordData) : RecState :=
  { nav := navAfter pid now subs
    isPkgSave := subs.any (fun x => x.pos?.isSome)
    packetIDBytes :=
      [UInt8.ofNat ((lowCounter subs).toNat / 16777216), UInt8.ofNat ((lowCounter subs).toNat / 65536 % 256),
       UInt8.ofNat ((lowCounter subs).toNat / 256 % 256), UInt8.ofNat ((anyCounter subs).toNat % 256)]
    client := lastOr ((subs.filterMap (·.term?)).map (·.terminalIdentifier)) client
    resultPkg := if subs.any (·.isLogin) then resultPacket pid else res }

theorem lastOr_append (a b : List UInt32) (c : UInt32) : lastOr (a ++ b) c = lastOr b (lastOr a c) := by
  unfold lastOr
  rw [List.getLast?_append]
  cases b.getLast? <;> simp

theorem lastOr_nil (c : UInt32) : lastOr [] c = c := rfl

theorem lastOr_single (x c : UInt32) : lastOr [x] c = x := rfl

theorem filterMap_single {α β : Type} (f : α → Option β) (l : List α) (x : α) :
    (l ++ [x]).filterMap f = l.filterMap f ++ (f x).toList := by
  rw [List.filterMap_append]
  cases h : f x <;> simp [h]

theorem flatMap_single {α β : Type} (f : α → List β) (l : List α) (x : α) : (l ++ [x]).flatMap f = l.flatMap f ++ f x := by
  simp

/-- A subrecord without any of the contents that are looked at. -/
theorem stateAfter_skip {pid now client res} {subs : List RecordData} {x : RecordData}
    (h1 : x.pos? = none) (h2 : x.extPos? = none) (h3 : x.term? = none) (h4 : x.counter? = none) (h5 : x.isLogin = false)
    (h6 : x.analog = []) (h7 : x.liquids = []) :
    stateAfter pid now client res (subs ++ [x]) = stateAfter pid now client res subs := by
  simp only [stateAfter, navAfter, storedAs, storedId, lowCounter, anyCounter, idCounters, filterMap_single, flatMap_single, List.any_append,
    h1, h2, h3, h4, h5, h6, h7, Option.toList_none, List.append_nil, List.any_cons, List.any_nil, Bool.or_false, Option.isSome_none]

theorem subStep_after (env : Env) (pid : UInt16) (now : Int) (client : UInt32) (res : Bytes) (subs : List RecordData) (x : RecordData) :
    subStep env pid now (stateAfter pid now client res subs) x =
      if x.isResp then .received (stateAfter pid now client res subs)
      else .next (stateAfter pid now client res (subs ++ [x])) := by
  obtain ⟨t, n, d⟩ := x
  cases d with
  | none => rw [stateAfter_skip rfl rfl rfl rfl rfl rfl rfl]; rfl
  | some d =>
    cases d with
    | resp d => rfl
    | module d => rw [stateAfter_skip rfl rfl rfl rfl rfl rfl rfl]; rfl
    | result d => rw [stateAfter_skip rfl rfl rfl rfl rfl rfl rfl]; rfl
    | state d => rw [stateAfter_skip rfl rfl rfl rfl rfl rfl rfl]; rfl
    | counters d => rw [stateAfter_skip rfl rfl rfl rfl rfl rfl rfl]; rfl
    | plus d => rw [stateAfter_skip rfl rfl rfl rfl rfl rfl rfl]; rfl
    | disp d => rw [stateAfter_skip rfl rfl rfl rfl rfl rfl rfl]; rfl
    | term d =>
      obtain ⟨x, hx⟩ : ∃ x : RecordData, x = ⟨t, n, some (.term d)⟩ := ⟨_, rfl⟩
      have h1 : x.pos? = none := by rw [hx]; rfl
      have h2 : x.extPos? = none := by rw [hx]; rfl
      have h3 : x.term? = some d := by rw [hx]; rfl
      have h4 : x.counter? = none := by rw [hx]; rfl
      have h5 : x.isLogin = true := by rw [hx]; rfl
      have h6 : x.analog = [] := by rw [hx]; rfl
      have h7 : x.liquids = [] := by rw [hx]; rfl
      have h8 : x.isResp = false := by rw [hx]; rfl
      rw [← hx]
      have hs : subStep env pid now (stateAfter pid now client res subs) x = subStep env pid now (stateAfter pid now client res subs) ⟨t, n, some (.term d)⟩ := by rw [hx]
      rw [hs]
      simp only [subStep, resultPkgOf_eq]
      simp only [stateAfter, navAfter, storedAs, storedId, lowCounter, anyCounter, idCounters, filterMap_single, flatMap_single, List.any_append, Option.toList_none, Option.toList_some, List.append_nil, List.any_cons, List.any_nil, Bool.or_false, Bool.or_true, Option.isSome_none, Option.isSome_some, if_true, h1, h2, h3, h4, h5, h6, h7, h8, Bool.false_eq_true, if_false, List.getLast?_concat, List.map_append, List.map_cons, List.map_nil, lastOr_append, lastOr_single, Option.getD_some]
    | auth d =>
      obtain ⟨x, hx⟩ : ∃ x : RecordData, x = ⟨t, n, some (.auth d)⟩ := ⟨_, rfl⟩
      have h1 : x.pos? = none := by rw [hx]; rfl
      have h2 : x.extPos? = none := by rw [hx]; rfl
      have h3 : x.term? = none := by rw [hx]; rfl
      have h4 : x.counter? = none := by rw [hx]; rfl
      have h5 : x.isLogin = true := by rw [hx]; rfl
      have h6 : x.analog = [] := by rw [hx]; rfl
      have h7 : x.liquids = [] := by rw [hx]; rfl
      have h8 : x.isResp = false := by rw [hx]; rfl
      rw [← hx]
      have hs : subStep env pid now (stateAfter pid now client res subs) x = subStep env pid now (stateAfter pid now client res subs) ⟨t, n, some (.auth d)⟩ := by rw [hx]
      rw [hs]
      simp only [subStep, resultPkgOf_eq]
      simp only [stateAfter, navAfter, storedAs, storedId, lowCounter, anyCounter, idCounters, filterMap_single, flatMap_single, List.any_append, Option.toList_none, Option.toList_some, List.append_nil, List.any_cons, List.any_nil, Bool.or_false, Bool.or_true, Option.isSome_none, Option.isSome_some, if_true, h1, h2, h3, h4, h5, h6, h7, h8, Bool.false_eq_true, if_false, List.getLast?_concat, List.map_append, List.map_cons, List.map_nil, lastOr_append, lastOr_single, Option.getD_some]
    | pos d =>
      obtain ⟨x, hx⟩ : ∃ x : RecordData, x = ⟨t, n, some (.pos d)⟩ := ⟨_, rfl⟩
      have h1 : x.pos? = some d := by rw [hx]; rfl
      have h2 : x.extPos? = none := by rw [hx]; rfl
      have h3 : x.term? = none := by rw [hx]; rfl
      have h4 : x.counter? = none := by rw [hx]; rfl
      have h5 : x.isLogin = false := by rw [hx]; rfl
      have h6 : x.analog = [] := by rw [hx]; rfl
      have h7 : x.liquids = [] := by rw [hx]; rfl
      have h8 : x.isResp = false := by rw [hx]; rfl
      rw [← hx]
      have hs : subStep env pid now (stateAfter pid now client res subs) x = subStep env pid now (stateAfter pid now client res subs) ⟨t, n, some (.pos d)⟩ := by rw [hx]
      rw [hs]
      simp only [subStep]
      simp only [stateAfter, navAfter, storedAs, storedId, lowCounter, anyCounter, idCounters, filterMap_single, flatMap_single, List.any_append, Option.toList_none, Option.toList_some, List.append_nil, List.any_cons, List.any_nil, Bool.or_false, Bool.or_true, Option.isSome_none, Option.isSome_some, if_true, h1, h2, h3, h4, h5, h6, h7, h8, Bool.false_eq_true, if_false, List.getLast?_concat, List.map_append, List.map_cons, List.map_nil, lastOr_append, lastOr_single, Option.getD_some]
      cases (subs.filterMap (·.pos?)).getLast? <;> rfl
    | extPos d =>
      obtain ⟨x, hx⟩ : ∃ x : RecordData, x = ⟨t, n, some (.extPos d)⟩ := ⟨_, rfl⟩
      have h1 : x.pos? = none := by rw [hx]; rfl
      have h2 : x.extPos? = some d := by rw [hx]; rfl
      have h3 : x.term? = none := by rw [hx]; rfl
      have h4 : x.counter? = none := by rw [hx]; rfl
      have h5 : x.isLogin = false := by rw [hx]; rfl
      have h6 : x.analog = [] := by rw [hx]; rfl
      have h7 : x.liquids = [] := by rw [hx]; rfl
      have h8 : x.isResp = false := by rw [hx]; rfl
      rw [← hx]
      have hs : subStep env pid now (stateAfter pid now client res subs) x = subStep env pid now (stateAfter pid now client res subs) ⟨t, n, some (.extPos d)⟩ := by rw [hx]
      rw [hs]
      simp only [subStep]
      simp only [stateAfter, navAfter, storedAs, storedId, lowCounter, anyCounter, idCounters, filterMap_single, flatMap_single, List.any_append, Option.toList_none, Option.toList_some, List.append_nil, List.any_cons, List.any_nil, Bool.or_false, Bool.or_true, Option.isSome_none, Option.isSome_some, if_true, h1, h2, h3, h4, h5, h6, h7, h8, Bool.false_eq_true, if_false, List.getLast?_concat, List.map_append, List.map_cons, List.map_nil, lastOr_append, lastOr_single, Option.getD_some]
      cases (subs.filterMap (·.pos?)).getLast? <;> rfl
    | adSens d =>
      obtain ⟨x, hx⟩ : ∃ x : RecordData, x = ⟨t, n, some (.adSens d)⟩ := ⟨_, rfl⟩
      have h1 : x.pos? = none := by rw [hx]; rfl
      have h2 : x.extPos? = none := by rw [hx]; rfl
      have h3 : x.term? = none := by rw [hx]; rfl
      have h4 : x.counter? = none := by rw [hx]; rfl
      have h5 : x.isLogin = false := by rw [hx]; rfl
      have h6 : x.analog = adSensorList d := by rw [hx, adSensorList_eq]; rfl
      have h7 : x.liquids = [] := by rw [hx]; rfl
      have h8 : x.isResp = false := by rw [hx]; rfl
      rw [← hx]
      have hs : subStep env pid now (stateAfter pid now client res subs) x = subStep env pid now (stateAfter pid now client res subs) ⟨t, n, some (.adSens d)⟩ := by rw [hx]
      rw [hs]
      simp only [subStep]
      simp only [stateAfter, navAfter, storedAs, storedId, lowCounter, anyCounter, idCounters, filterMap_single, flatMap_single, List.any_append, Option.toList_none, Option.toList_some, List.append_nil, List.any_cons, List.any_nil, Bool.or_false, Bool.or_true, Option.isSome_none, Option.isSome_some, if_true, h1, h2, h3, h4, h5, h6, h7, h8, Bool.false_eq_true, if_false, List.getLast?_concat, List.map_append, List.map_cons, List.map_nil, lastOr_append, lastOr_single, Option.getD_some]
      cases (subs.filterMap (·.pos?)).getLast? <;> rfl
    | absAn d =>
      obtain ⟨x, hx⟩ : ∃ x : RecordData, x = ⟨t, n, some (.absAn d)⟩ := ⟨_, rfl⟩
      have h1 : x.pos? = none := by rw [hx]; rfl
      have h2 : x.extPos? = none := by rw [hx]; rfl
      have h3 : x.term? = none := by rw [hx]; rfl
      have h4 : x.counter? = none := by rw [hx]; rfl
      have h5 : x.isLogin = false := by rw [hx]; rfl
      have h6 : x.analog = [{ sensorNumber := d.sensorNumber, value := d.value }] := by rw [hx]; rfl
      have h7 : x.liquids = [] := by rw [hx]; rfl
      have h8 : x.isResp = false := by rw [hx]; rfl
      rw [← hx]
      have hs : subStep env pid now (stateAfter pid now client res subs) x = subStep env pid now (stateAfter pid now client res subs) ⟨t, n, some (.absAn d)⟩ := by rw [hx]
      rw [hs]
      simp only [subStep]
      simp only [stateAfter, navAfter, storedAs, storedId, lowCounter, anyCounter, idCounters, filterMap_single, flatMap_single, List.any_append, Option.toList_none, Option.toList_some, List.append_nil, List.any_cons, List.any_nil, Bool.or_false, Bool.or_true, Option.isSome_none, Option.isSome_some, if_true, h1, h2, h3, h4, h5, h6, h7, h8, Bool.false_eq_true, if_false, List.getLast?_concat, List.map_append, List.map_cons, List.map_nil, lastOr_append, lastOr_single, Option.getD_some]
      cases (subs.filterMap (·.pos?)).getLast? <;> rfl
    | liquid d =>
      obtain ⟨x, hx⟩ : ∃ x : RecordData, x = ⟨t, n, some (.liquid d)⟩ := ⟨_, rfl⟩
      have h1 : x.pos? = none := by rw [hx]; rfl
      have h2 : x.extPos? = none := by rw [hx]; rfl
      have h3 : x.term? = none := by rw [hx]; rfl
      have h4 : x.counter? = none := by rw [hx]; rfl
      have h5 : x.isLogin = false := by rw [hx]; rfl
      have h6 : x.analog = [] := by rw [hx]; rfl
      have h7 : x.liquids = [liquidOf d] := by rw [hx, liquidOf_eq]; rfl
      have h8 : x.isResp = false := by rw [hx]; rfl
      rw [← hx]
      have hs : subStep env pid now (stateAfter pid now client res subs) x = subStep env pid now (stateAfter pid now client res subs) ⟨t, n, some (.liquid d)⟩ := by rw [hx]
      rw [hs]
      simp only [subStep]
      simp only [stateAfter, navAfter, storedAs, storedId, lowCounter, anyCounter, idCounters, filterMap_single, flatMap_single, List.any_append, Option.toList_none, Option.toList_some, List.append_nil, List.any_cons, List.any_nil, Bool.or_false, Bool.or_true, Option.isSome_none, Option.isSome_some, if_true, h1, h2, h3, h4, h5, h6, h7, h8, Bool.false_eq_true, if_false, List.getLast?_concat, List.map_append, List.map_cons, List.map_nil, lastOr_append, lastOr_single, Option.getD_some]
      cases (subs.filterMap (·.pos?)).getLast? <;> rfl
    | absCntr d =>
      obtain ⟨x, hx⟩ : ∃ x : RecordData, x = ⟨t, n, some (.absCntr d)⟩ := ⟨_, rfl⟩
      have h1 : x.pos? = none := by rw [hx]; rfl
      have h2 : x.extPos? = none := by rw [hx]; rfl
      have h3 : x.term? = none := by rw [hx]; rfl
      have h4 : x.counter? = some d := by rw [hx]; rfl
      have h5 : x.isLogin = false := by rw [hx]; rfl
      have h6 : x.analog = [] := by rw [hx]; rfl
      have h7 : x.liquids = [] := by rw [hx]; rfl
      have h8 : x.isResp = false := by rw [hx]; rfl
      rw [← hx]
      have hs : subStep env pid now (stateAfter pid now client res subs) x = subStep env pid now (stateAfter pid now client res subs) ⟨t, n, some (.absCntr d)⟩ := by rw [hx]
      rw [hs]
      simp only [subStep]
      have hc : idCounters (subs ++ [x]) = idCounters subs ++ (if d.counterNumber = 110 ∨ d.counterNumber = 111 then [d] else []) := by
        unfold idCounters
        rw [filterMap_single, h4, List.filter_append]
        congr 1
        by_cases h : d.counterNumber = 110 ∨ d.counterNumber = 111
        · simp [h]
        · simp [h]
      by_cases q1 : d.counterNumber = 110
      · rw [if_pos (.inl q1)] at hc
        have hl : lowCounter (subs ++ [x]) = d.counterValue := by
          unfold lowCounter; rw [hc, List.filter_append]; simp [q1]
        have ha : anyCounter (subs ++ [x]) = d.counterValue := by
          unfold anyCounter; rw [hc, List.getLast?_concat]
        have hi : storedId pid (subs ++ [x]) = d.counterValue := by
          unfold storedId; rw [hc, List.getLast?_concat]; simp only [if_pos q1]
        rw [if_pos q1]
        simp only [stateAfter, navAfter, storedAs, hl, ha, hi, filterMap_single, flatMap_single, List.any_append, Option.toList_none, Option.toList_some, List.append_nil, List.any_cons, List.any_nil, Bool.or_false, Bool.or_true, Option.isSome_none, Option.isSome_some, if_true, h1, h2, h3, h5, h6, h7, h8, Bool.false_eq_true, if_false]
        cases (subs.filterMap (·.pos?)).getLast? <;> rfl
      · by_cases q2 : d.counterNumber = 111
        · rw [if_pos (.inr q2)] at hc
          have hl : lowCounter (subs ++ [x]) = lowCounter subs := by
            unfold lowCounter; rw [hc, List.filter_append]; simp [q1]
          have ha : anyCounter (subs ++ [x]) = d.counterValue := by
            unfold anyCounter; rw [hc, List.getLast?_concat]
          have hi : storedId pid (subs ++ [x]) = le32 [UInt8.ofNat ((lowCounter subs).toNat / 16777216), UInt8.ofNat ((lowCounter subs).toNat / 65536 % 256),
              UInt8.ofNat ((lowCounter subs).toNat / 256 % 256), UInt8.ofNat (d.counterValue.toNat % 256)] := by
            unfold storedId; rw [hc, List.getLast?_concat]
            simp only [if_neg q1, hl, le32]
            have := UInt32.toNat_lt (lowCounter subs)
            rw [ofNat8_toNat _ (by omega), ofNat8_toNat _ (by omega), ofNat8_toNat _ (by omega), ofNat8_toNat _ (by omega)]
            rfl
          rw [if_neg q1, if_pos q2]
          simp only [stateAfter, navAfter, storedAs, hl, ha, hi, filterMap_single, flatMap_single, List.any_append, Option.toList_none, Option.toList_some, List.append_nil, List.any_cons, List.any_nil, Bool.or_false, Bool.or_true, Option.isSome_none, Option.isSome_some, if_true, h1, h2, h3, h5, h6, h7, h8, Bool.false_eq_true, if_false]
          cases (subs.filterMap (·.pos?)).getLast? <;> rfl
        · rw [if_neg (by simp [q1, q2]), List.append_nil] at hc
          have hl : lowCounter (subs ++ [x]) = lowCounter subs := by unfold lowCounter; rw [hc]
          have ha : anyCounter (subs ++ [x]) = anyCounter subs := by unfold anyCounter; rw [hc]
          have hi : storedId pid (subs ++ [x]) = storedId pid subs := by unfold storedId; rw [hc, hl]
          rw [if_neg q1, if_neg q2]
          simp only [stateAfter, navAfter, storedAs, hl, ha, hi, filterMap_single, flatMap_single, List.any_append, Option.toList_none, Option.toList_some, List.append_nil, List.any_cons, List.any_nil, Bool.or_false, Bool.or_true, Option.isSome_none, Option.isSome_some, if_true, h1, h2, h3, h5, h6, h7, h8, Bool.false_eq_true, if_false]

theorem stateAfter_nil (pid : UInt16) (now : Int) (client : UInt32) (res : Bytes) :
    stateAfter pid now client res [] =
      { nav := { packetID := UInt32.ofNat pid.toNat }, isPkgSave := false, packetIDBytes := zeros 4, client := client, resultPkg := res } := by
  rfl

theorem subLoop_from (env : Env) (pid : UInt16) (now : Int) (client : UInt32) (res : Bytes) (pre subs : List RecordData) :
    subLoop env pid now (stateAfter pid now client res pre) subs =
      if subs.any (·.isResp) then .received (stateAfter pid now client res (pre ++ subs.takeWhile (fun x => !x.isResp)))
      else .next (stateAfter pid now client res (pre ++ subs)) := by
  induction subs generalizing pre with
  | nil => simp [subLoop]
  | cons x subs ih =>
    simp only [subLoop, subStep_after]
    cases h : x.isResp with
    | true => simp [h]
    | false =>
      simp only [Bool.false_eq_true, if_false, ih, List.any_cons, h, Bool.false_or, List.append_assoc, List.cons_append, List.nil_append]
      rw [List.takeWhile_cons_of_pos (by simp [h])]

/-! ## Records -/

/-- What is saved for one record. -/
def saved1 (pid : UInt16) (now : Int) (c : UInt32) (r : ServiceDataRecord) : Option NavRecord :=
  (r.recordDataSet.filterMap (·.pos?)).getLast?.map fun d => storedAs now (lastOr r.ids c) (storedId pid r.recordDataSet) r.recordDataSet d

theorem stored_nil (pid : UInt16) (now : Int) (c : UInt32) : stored pid now c [] = [] := rfl

theorem stored_cons (pid : UInt16) (now : Int) (c : UInt32) (r : ServiceDataRecord) (recs : List ServiceDataRecord) :
    stored pid now c (r :: recs) = (saved1 pid now c r).toList ++ stored pid now (lastOr r.ids c) recs := by
  unfold stored saved1
  rw [List.zipIdx_cons, List.zipIdx_succ, List.filterMap_cons]
  simp only [List.filterMap_map, List.take_succ_cons, Nat.zero_add, List.take_zero, List.flatMap_cons, List.flatMap_nil, List.append_nil,
    lastOr_append, Function.comp_def]
  cases (r.recordDataSet.filterMap (·.pos?)).getLast? <;> simp

theorem idsIn_last (r : ServiceDataRecord) (subs : List RecordData) (c : UInt32) :
    lastOr ((subs.filterMap (·.term?)).map (·.terminalIdentifier)) (if r.obfe = one then r.objectIdentifier else c) = lastOr (r.idsIn subs) c := by
  unfold ServiceDataRecord.idsIn
  rw [lastOr_append]
  congr 1
  by_cases h : r.obfe = one
  · have h' : r.obfe = go!"1" := h
    rw [if_pos h, if_pos h']; rfl
  · have h' : ¬ r.obfe = go!"1" := h
    rw [if_neg h, if_neg h']; rfl

theorem any_pos_iff (subs : List RecordData) :
    subs.any (fun x => x.pos?.isSome) = ((subs.filterMap (·.pos?)).getLast?).isSome := by
  induction subs using List.reverseRecOn with
  | nil => rfl
  | append_singleton subs x ih =>
    rw [List.any_append, filterMap_single]
    cases h : x.pos? with
    | none => simp [h, ih]
    | some d => simp [h]

/-- One record without a response in the record loop. -/
theorem recLoop_cons (env : Env) (pid : UInt16) (now : Int) (effs : List Effect) (st : PktState) (r : ServiceDataRecord)
    (recs : List ServiceDataRecord) (h : r.hasResp = false) :
    recLoop env pid now effs st (r :: recs) =
      recLoop env pid now (effs ++ ((saved1 pid now st.client r).toList.map .save))
        { client := lastOr r.ids st.client
          serviceType := r.sourceServiceType
          responses := st.responses ++ [confirmation r]
          resultPkg := if r.recordDataSet.any (·.isLogin) then resultPacket pid else st.resultPkg } recs := by
  rw [recLoop]
  rw [← stateAfter_nil, subLoop_from]
  unfold ServiceDataRecord.hasResp at h
  rw [if_neg (by simp [h])]
  simp only [List.nil_append]
  have e1 : (stateAfter pid now (if r.obfe = one then r.objectIdentifier else st.client) st.resultPkg r.recordDataSet).client = lastOr r.ids st.client :=
    idsIn_last r r.recordDataSet st.client
  rw [e1]
  congr 1
  simp only [stateAfter, any_pos_iff, saved1, navAfter]
  cases (r.recordDataSet.filterMap (·.pos?)).getLast? with
  | none => simp
  | some d => simp [storedAs]

/-- A record with a response ends the packet. -/
theorem recLoop_resp (env : Env) (pid : UInt16) (now : Int) (effs : List Effect) (st : PktState) (r : ServiceDataRecord)
    (recs : List ServiceDataRecord) (h : r.hasResp = true) :
    recLoop env pid now effs st (r :: recs) =
      .received effs (lastOr (r.idsIn (r.recordDataSet.takeWhile (fun x => !x.isResp))) st.client) := by
  rw [recLoop]
  rw [← stateAfter_nil, subLoop_from]
  unfold ServiceDataRecord.hasResp at h
  rw [if_pos h]
  simp only [List.nil_append]
  congr 1
  exact idsIn_last r _ st.client

theorem recLoop_done (env : Env) (pid : UInt16) (now : Int) (effs : List Effect) (st : PktState) (recs : List ServiceDataRecord)
    (h : ∀ r ∈ recs, r.hasResp = false) :
    recLoop env pid now effs st recs =
      .done (effs ++ (stored pid now st.client recs).map .save)
        { client := lastOr (recs.flatMap (·.ids)) st.client
          serviceType := (recs.getLast?.map (·.sourceServiceType)).getD st.serviceType
          responses := st.responses ++ recs.map confirmation
          resultPkg := if recs.any (fun r => r.recordDataSet.any (·.isLogin)) then resultPacket pid else st.resultPkg } := by
  induction recs generalizing effs st with
  | nil => simp [recLoop, stored_nil, lastOr_nil]
  | cons r recs ih =>
    rw [recLoop_cons _ _ _ _ _ _ _ (h r List.mem_cons_self), ih _ _ (fun x hx => h x (List.mem_cons_of_mem _ hx)), stored_cons]
    simp only [List.map_append, List.append_assoc, List.flatMap_cons, lastOr_append, List.map_cons, List.cons_append, List.nil_append,
      List.any_cons]
    congr 2
    · cases recs with
      | nil => rfl
      | cons y ys => simp [List.getLast?_cons]
    · have e : ∀ (a b : Bool) (x y : Bytes), (if b = true then x else if a = true then x else y) = if (a || b) = true then x else y := by
        intro a b x y; cases a <;> cases b <;> rfl
      exact e _ _ _ _

theorem recLoop_received (env : Env) (pid : UInt16) (now : Int) (effs : List Effect) (st : PktState) (recs : List ServiceDataRecord)
    (h : ∃ r ∈ recs, r.hasResp = true) :
    ∃ c, recLoop env pid now effs st recs = .received (effs ++ (stored pid now st.client (beforeResp recs)).map .save) c ∧
      ∃ r subs, r ∈ recs ∧ subs <+: r.recordDataSet ∧ c = lastOr ((beforeResp recs).flatMap (·.ids) ++ r.idsIn subs) st.client ∧
        beforeResp recs ++ [r] <+: recs ∧ subs = r.recordDataSet.takeWhile (fun x => !x.isResp) := by
  induction recs generalizing effs st with
  | nil => obtain ⟨_, h, _⟩ := h; cases h
  | cons r recs ih =>
    cases hr : r.hasResp with
    | true =>
      have e : beforeResp (r :: recs) = [] := by unfold beforeResp; rw [List.takeWhile_cons_of_neg (by simp [hr])]
      rw [recLoop_resp _ _ _ _ _ _ _ hr, e]
      exact ⟨_, by simp [stored_nil], r, _, List.mem_cons_self, List.takeWhile_prefix _, rfl, ⟨recs, rfl⟩, rfl⟩
    | false =>
      have e : beforeResp (r :: recs) = r :: beforeResp recs := by unfold beforeResp; rw [List.takeWhile_cons_of_pos (by simp [hr])]
      rw [recLoop_cons _ _ _ _ _ _ _ hr, e]
      obtain ⟨x, hx, hx'⟩ := h
      have hx2 : x ∈ recs := by
        rcases List.mem_cons.mp hx with rfl | h
        · rw [hr] at hx'; cases hx'
        · exact h
      obtain ⟨c, h1, y, subs, h2, h3, h4, h5, h6⟩ := ih (effs ++ ((saved1 pid now st.client r).toList.map .save))
        { client := lastOr r.ids st.client
          serviceType := r.sourceServiceType
          responses := st.responses ++ [confirmation r]
          resultPkg := if r.recordDataSet.any (·.isLogin) then resultPacket pid else st.resultPkg } ⟨x, hx2, hx'⟩
      refine ⟨c, ?_, y, subs, List.mem_cons_of_mem _ h2, h3, ?_, ?_, h6⟩
      · rw [h1, stored_cons]
        simp
      · rw [h4]
        simp only [List.flatMap_cons, List.append_assoc, lastOr_append]
      · exact List.cons_prefix_cons.mpr ⟨rfl, h5⟩

/-! ## Packets -/

/-- An accepted application packet. -/
theorem accepts_count {env : Env} {pkt : Slice} {p : Package} {recs : List ServiceDataRecord} (h : Accepts env pkt p recs) :
    recs.length ≤ 9362 := by
  obtain ⟨h1, h2, h3⟩ := h
  obtain ⟨d, hd, hq⟩ := ((decode_frame env none {} pkt).2 _ _ _ h1).2.2 rfl
  have hd' : d = .sds recs := by
    rw [hq] at h3
    simp only [Frame.package] at h3
    injection h3
  subst hd'
  unfold Frame.content at hd
  obtain ⟨x, hx, hd⟩ := bind_eq_ok.mp hd
  have hlen : x.length < 65536 := by
    unfold Frame.clear at hx
    have hb : (Frame.body pkt.data).length < 65536 := by
      have := fdl_lt pkt.data
      unfold Frame.body
      rw [List.length_append, List.length_take, zeros, List.length_replicate]
      omega
    split at hx
    · cases hx
    · injection hx with hx; rw [← hx]; exact hb
  split at hd
  · obtain ⟨s, hs, hd⟩ := bind_eq_ok.mp hd
    simp only [pure_eq_ok] at hd
    injection hd with hd; injection hd with hd
    subst hd
    have := sdsLoop_count _ _ _ _ _ hs
    simp only [List.length_nil, Nat.sub_zero] at this
    omega
  · obtain ⟨s, hs, hd⟩ := bind_eq_ok.mp hd
    simp only [pure_eq_ok] at hd
    injection hd with hd; cases hd

/-- Application packet without a response. -/
theorem handlePacket_app (env : Env) (now : Int) (client : UInt32) {pkt : Slice} {p : Package} {recs : List ServiceDataRecord}
    (h : Accepts env pkt p recs) (hr : ∀ r ∈ recs, r.hasResp = false) :
    ∃ ack, (IsResponse env ack p.packetIdentifier (acceptance p.packetIdentifier recs) ∧ recs.length ≤ 10900 ∧
        createPtResponse env p.packetIdentifier 0 ((recs.getLast?.map (·.sourceServiceType)).getD 0) (recs.map confirmation) = .ok ack) ∧
      handlePacket env now client pkt =
        { effs := (stored p.packetIdentifier now client recs).map .save ++ [.write ack] ++
            (if recs.any (fun r => r.recordDataSet.any (·.isLogin)) then [.write (resultPacket p.packetIdentifier)] else [])
          client := some (lastOr (recs.flatMap (·.ids)) client) } := by
  have hn := accepts_count h
  obtain ⟨h1, h2, h3⟩ := h
  obtain ⟨ack, e1, e2, e3⟩ := createPtResponse_ok env p.packetIdentifier 0 ((recs.getLast?.map (·.sourceServiceType)).getD 0) recs (by omega)
  rw [← acceptance_eq] at e3
  refine ⟨ack, ⟨e3, by omega, e1⟩, ?_⟩
  unfold handlePacket
  rw [h1]
  simp only [h2, if_true, h3]
  rw [recLoop_done _ _ _ _ _ _ hr]
  simp only [List.nil_append, e1, writeResp]
  congr 2
  cases recs.any (fun r => r.recordDataSet.any (·.isLogin)) with
  | true => rfl
  | false => rfl

/-- Application packet with a response in it. -/
theorem handlePacket_appResp (env : Env) (now : Int) (client : UInt32) {pkt : Slice} {p : Package} {recs : List ServiceDataRecord}
    (h : Accepts env pkt p recs) (hr : ∃ r ∈ recs, r.hasResp = true) :
    ∃ r subs, beforeResp recs ++ [r] <+: recs ∧ subs = r.recordDataSet.takeWhile (fun x => !x.isResp) ∧
      handlePacket env now client pkt =
        { effs := (stored p.packetIdentifier now client (beforeResp recs)).map .save
          client := some (lastOr ((beforeResp recs).flatMap (·.ids) ++ r.idsIn subs) client) } := by
  obtain ⟨h1, h2, h3⟩ := h
  obtain ⟨c, e1, r, subs, _, _, e2, e3, e4⟩ := recLoop_received env p.packetIdentifier now [] { client := client } recs hr
  refine ⟨r, subs, e3, e4, ?_⟩
  unfold handlePacket
  rw [h1]
  simp only [h2, if_true, h3]
  rw [e1, e2]
  simp

/-- Rejected packet. -/
theorem handlePacket_rejected (env : Env) (now : Int) (client : UInt32) {pkt : Slice} {p : Package} {code : UInt8} {e : Err}
    (h : Package.decode env none {} pkt = .ret p code (some e)) :
    ∃ resp, (IsResponse env resp p.packetIdentifier { responsePacketID := p.packetIdentifier, processingResult := code, sdr := none } ∧
        createPtResponse env p.packetIdentifier code 0 [] = .ok resp) ∧
      handlePacket env now client pkt = { effs := [.write resp], client := some client } := by
  obtain ⟨b, e1, e2, e3⟩ := createPtResponse_ok env p.packetIdentifier code 0 [] (by decide)
  refine ⟨b, ⟨e3, e1⟩, ?_⟩
  unfold handlePacket
  rw [h]
  simp only
  rw [show ([] : List RecordData) = [].map confirmation from rfl, e1]
  rfl

/-- Response packet. -/
theorem handlePacket_response (env : Env) (now : Int) (client : UInt32) {pkt : Slice} {p : Package}
    (h : Package.decode env none {} pkt = .ret p 0 none) (hp : p.packetType ≠ 1) :
    handlePacket env now client pkt = { effs := [], client := some client } := by
  unfold handlePacket
  rw [h]
  simp only [if_neg hp]

theorem handlePacket_panic (env : Env) (now : Int) (client : UInt32) {pkt : Slice} (h : Package.decode env none {} pkt = .panic) :
    handlePacket env now client pkt = { effs := [.crash], client := none } := by
  unfold handlePacket
  rw [h]

/-- Every packet is of one of these kinds. -/
theorem packet_cases (env : Env) (pkt : Slice) :
    Package.decode env none {} pkt = .panic ∨
    (∃ p code e, Package.decode env none {} pkt = .ret p code (some e)) ∨
    (∃ p, Package.decode env none {} pkt = .ret p 0 none ∧ p.packetType ≠ 1) ∨
    (∃ p recs, Accepts env pkt p recs) := by
  cases hd : Package.decode env none {} pkt with
  | panic => exact .inl rfl
  | ret p code e =>
    cases e with
    | some e => exact .inr (.inl ⟨p, code, e, rfl⟩)
    | none =>
      obtain ⟨h1, _, h3⟩ := (decode_frame env none {} pkt).2 _ _ _ hd
      have hc := h1.mp rfl
      subst hc
      by_cases hp : p.packetType = 1
      · refine .inr (.inr (.inr ?_))
        obtain ⟨d, hc, hq⟩ := h3 rfl
        have hpt : Frame.pt pkt.data = 1 := by
          have : (UInt8.ofNat (Frame.pt pkt.data)) = 1 := by rw [hq] at hp; exact hp
          have h2 := congrArg UInt8.toNat this
          rw [ofNat8_toNat _ (pt_lt _)] at h2
          exact h2
        unfold Frame.content at hc
        obtain ⟨x, hx, hc⟩ := bind_eq_ok.mp hc
        rw [if_pos hpt] at hc
        obtain ⟨s, hs, hc⟩ := bind_eq_ok.mp hc
        simp only [pure_eq_ok] at hc
        injection hc with hc
        exact ⟨p, s, hd, hp, by rw [hq, ← hc]; rfl⟩
      · exact .inr (.inr (.inl ⟨p, rfl, hp⟩))

end Egts
