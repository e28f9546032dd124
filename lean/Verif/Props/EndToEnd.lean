import Verif.Proofs.EndToEnd
import Verif.Props.Gen

/-! # From a device to the storages (C82) -/

namespace Egts

variable {W E : Type}

/-! ## Two packets of a device: a login, and a position with a level reading -/

def loginRecord : ServiceDataRecord :=
  { recordNumber := 1, ssod := go!"1", rsod := go!"0", grp := go!"0", rpp := go!"11", tmfe := go!"0", evfe := go!"0", obfe := go!"0",
    sourceServiceType := 1, recipientServiceType := 1
    recordDataSet := [{ subrecordData := some (.term
      { terminalIdentifier := 4711, mne := go!"0", bse := go!"1", nide := go!"0", ssra := go!"1", lngce := go!"0", imsie := go!"0",
        imeie := go!"1", hdide := go!"0", imei := go!"123456789012345", bufferSize := 1024 }) }] }

def loginPackage : Package :=
  { protocolVersion := 1, prefix_ := go!"00", route := go!"0", encryptionAlg := go!"00", compression := go!"0", priority := go!"11",
    packetIdentifier := 11, packetType := 1, servicesFrameData := some (.sds [loginRecord]) }

def loginSubs : Bytes := [1, 22, 0, 103, 18, 0, 0, 82] ++ go!"123456789012345" ++ [0, 4]

def loginBody : Bytes := [25, 0, 1, 0, 152, 1, 1] ++ loginSubs

theorem loginBody_eq (env : Env) : ServiceDataSet.encode env [loginRecord] = .ok loginBody := by with_unfolding_all rfl

theorem login_report (env : Env) : Report env loginPackage [loginRecord] where
  records := rfl
  wf := by
    refine ⟨by decide, .sds [loginRecord], loginBody, rfl, rfl, ⟨by simp, ?_⟩, ⟨loginBody, loginBody_eq env, .inl ⟨rfl, rfl⟩⟩, by decide, by decide⟩
    intro r hr
    simp only [List.mem_singleton] at hr
    subst hr
    refine ⟨by decide, by decide, by decide, by decide, by decide, by decide, by decide, fun h => absurd h (by decide), ?_,
      loginSubs, by with_unfolding_all rfl, by decide, .inl rfl⟩
    intro rd hrd
    simp only [loginRecord, List.mem_singleton] at hrd
    subst hrd
    exact ⟨_, loginSubs.drop 3, rfl, (by unfold SubData.WF SrTermIdentity.WF; decide), .inr (.inl ⟨rfl, by decide, by decide⟩), by with_unfolding_all rfl, by decide, .inl rfl⟩
  plain := rfl
  version := rfl
  fits := by
    intro body h
    rw [loginBody_eq] at h
    cases h
    decide
  noResponse := by decide
  carried := by
    intro r hr x hx d hd
    simp only [List.mem_singleton] at hr
    subst hr
    simp only [loginRecord, List.mem_singleton] at hx
    subst hx
    cases hd
    trivial

theorem gen_report (env : Env) (a : GenArgs) (hlat : 0 ≤ a.lat ∧ a.lat ≤ 90) (hlon : 0 ≤ a.lon ∧ a.lon ≤ 180) :
    Report env (genPackage a) [genRecord a] where
  records := rfl
  wf := genPackage_wf env a hlat hlon
  plain := rfl
  version := rfl
  fits := by
    intro body h
    rw [genSds] at h
    injection h with h
    rw [← h]
    exact (by decide : 11 + 52 + 2 < 2 ^ 16)
  noResponse := by
    intro r hr
    simp only [List.mem_singleton] at hr
    subst hr
    rfl
  carried := by
    intro r hr x hx d hd
    simp only [List.mem_singleton] at hr
    subst hr
    simp only [genRecord, List.mem_cons, List.not_mem_nil, or_false] at hx
    rcases hx with rfl | rfl
    · cases hd
      exact fun h => absurd (show (0 : UInt8) = 1 from h) (by decide)
    · cases hd
      trivial

/-- What the device sends. -/
def deviceSends : List (Package × List ServiceDataRecord) := [(loginPackage, [loginRecord]), (genPackage genExample, [genRecord genExample])]

theorem device_reports (env : Env) : ∀ x ∈ deviceSends, Report env x.1 x.2 := by
  intro x hx
  simp only [deviceSends, List.mem_cons, List.not_mem_nil, or_false] at hx
  rcases hx with rfl | rfl
  · exact login_report env
  · exact gen_report env genExample (by show (_ : Rat) ≤ _ ∧ (_ : Rat) ≤ _; decide) (by show (_ : Rat) ≤ _ ∧ (_ : Rat) ≤ _; decide)

theorem device_frames (env : Env) : ∃ frames, List.Forall₂ (fun x f => (x.1.encode env none).2 = .ok f) deviceSends frames := by
  obtain ⟨f, e1, _⟩ := C06_application_exact env none loginPackage {} [] loginBody _ rfl (login_report env).wf rfl (loginBody_eq env)
  have h := (device_reports env (genPackage genExample, [genRecord genExample]) (by simp [deviceSends])).wf
  obtain ⟨g, e2, _⟩ := C06_application_exact env none (genPackage genExample) {} [] _ _ rfl h rfl (genSds env genExample)
  exact ⟨[f, g], .cons e1 (.cons e2 .nil)⟩

/-- The record due is attributed to the object of the position; without one it would be the terminal of the login. -/
example (now : Nat → Int) : ∃ n, dueRecords now deviceSends = [n] ∧ n.client = 133552 ∧ n.packetID = 12 ∧ n.receivedTimestamp = now 1 ∧
    n.latitude = 45 ∧ n.liquidSensors = [{ sensorNumber := 1, errorFlag := go!"1", valueMm := 77, valueL := 0 }] := ⟨_, rfl, rfl, rfl, rfl, rfl, rfl⟩

example : idsSent deviceSends 1 = [4711] := rfl

/-- The login is answered by two packets, the position by one. -/
example (env : Env) (ws : List Bytes) (h : Answers env (loginPackage, [loginRecord]) ws) : ws.length = 2 := by
  obtain ⟨ack, _, rfl⟩ := h
  rfl

/-! ## C82 -/

/-- A device connects, sends packets one after the other, and stops or goes away. The receiver does this, packet by packet: it saves the
records due for it, and then writes the answer. Then it waits for more, or waits for the time-out and closes, or closes. Nothing else. -/
theorem C82_connection (env : Env) (ce : ConnEnv) (sent : List (Package × List ServiceDataRecord)) (frames : List Bytes)
    (hr : ∀ x ∈ sent, Report env x.1 x.2) (hf : List.Forall₂ (fun x f => (x.1.encode env none).2 = .ok f) sent frames) (e : End) :
    ∃ blocks : List (List Effect), handleConn env ce frames.flatten e = blocks.flatten ++ atEnd e ∧
      blocks.length = sent.length ∧
      ∀ i x effs, sent[i]? = some x → blocks[i]? = some effs → ∃ recs ws, effs = recs.map .save ++ ws.map .write ∧
        List.Forall₂ NavRecord.Near (stored x.1.packetIdentifier (ce.clock i) (lastOr (idsSent sent i) 0) x.2) recs ∧ Answers env x ws := by
  have hs : List.Forall₂ (SentAs env) sent frames := forall₂_mono_mem (fun x hx f h => ⟨hr x hx, h⟩) hf
  obtain ⟨hw, hn⟩ := frames_good ce hs
  obtain ⟨p1, p2, p3⟩ := C42_pipelined env ce frames hw hn
  have p4 := C42_each_frame env ce frames hw hn
  rw [p1] at p4
  refine ⟨frames.zipIdx.map (fun (f, i) => (handlePacket env (ce.clock i) (lastOr (idsBefore env ce frames i) 0) ⟨f, ce.spare i⟩).effs), ?_, ?_, ?_⟩
  · rw [← List.flatMap_def, ← p4]
    cases e with
    | blocked => rw [p1]; exact (List.append_nil _).symm
    | eof => exact p2
    | error => exact p3
  · rw [List.length_map, List.length_zipIdx, hs.length_eq]
  · intro i x effs hx he
    rw [List.getElem?_map, List.getElem?_zipIdx] at he
    cases hfi : frames[i]? with
    | none => rw [hfi] at he; cases he
    | some f =>
      rw [hfi] at he
      simp only [Option.map_some, Option.some.injEq, Nat.zero_add] at he
      have hxf : SentAs env x f := by
        have := List.forall₂_iff_get.mp hs
        obtain ⟨hi, rfl⟩ := List.getElem?_eq_some_iff.mp hx
        obtain ⟨hi', rfl⟩ := List.getElem?_eq_some_iff.mp hfi
        exact this.2 i hi hi'
      subst he
      rw [idsBefore_sent ce hs]
      exact handlePacket_sent hxf _ _ _

example (env : Env) (ce : ConnEnv) : ∃ frames blocks, List.Forall₂ (fun x f => (x.1.encode env none).2 = .ok f) deviceSends frames ∧
    handleConn env ce frames.flatten .eof = List.flatten blocks ++ [.waitTimer, .close] ∧ blocks.length = 2 := by
  obtain ⟨frames, hf⟩ := device_frames env
  obtain ⟨blocks, h1, h2, _⟩ := C82_connection env ce _ frames (device_reports env) hf .eof
  exact ⟨frames, blocks, hf, h1, h2⟩

/-- Altogether: what is saved are the records due, in order, and what is written are the answers, in order. -/
theorem C82_totals (env : Env) (ce : ConnEnv) (sent : List (Package × List ServiceDataRecord)) (frames : List Bytes)
    (hr : ∀ x ∈ sent, Report env x.1 x.2) (hf : List.Forall₂ (fun x f => (x.1.encode env none).2 = .ok f) sent frames) (e : End) :
    List.Forall₂ NavRecord.Near (dueRecords ce.clock sent) (saves (handleConn env ce frames.flatten e)) ∧
    ∃ answers, List.Forall₂ (Answers env) sent answers ∧ writes (handleConn env ce frames.flatten e) = answers.flatten := by
  obtain ⟨blocks, h1, h2, h3⟩ := C82_connection env ce sent frames hr hf e
  have ⟨t1, t2⟩ : saves (atEnd e) = [] ∧ writes (atEnd e) = [] := by cases e <;> exact ⟨rfl, rfl⟩
  have hsb : saves (handleConn env ce frames.flatten e) = blocks.flatMap saves := by
    rw [h1]
    unfold saves at *
    rw [List.filterMap_append, t1, List.append_nil, List.filterMap_flatten, List.flatMap_def]
  have hwb : writes (handleConn env ce frames.flatten e) = blocks.flatMap writes := by
    rw [h1]
    unfold writes at *
    rw [List.filterMap_append, t2, List.append_nil, List.filterMap_flatten, List.flatMap_def]
  rw [hsb, hwb]
  have hz : List.Forall₂ (fun (x : (Package × List ServiceDataRecord) × Nat) (b : List Effect) =>
      List.Forall₂ NavRecord.Near (stored x.1.1.packetIdentifier (ce.clock x.2) (lastOr (idsSent sent x.2) 0) x.1.2) (saves b) ∧
      Answers env x.1 (writes b)) sent.zipIdx blocks := by
    rw [List.forall₂_iff_get]
    refine ⟨by rw [List.length_zipIdx, h2], ?_⟩
    intro i hi hb
    rw [List.length_zipIdx] at hi
    obtain ⟨recs, ws, e1, e2, e3⟩ := h3 i sent[i] blocks[i] (by simp [hi]) (by simp [hb])
    have es : saves (recs.map Effect.save ++ ws.map Effect.write) = recs := by
      unfold saves
      rw [List.filterMap_append, List.filterMap_map, List.filterMap_map]
      simp
    have ew : writes (recs.map Effect.save ++ ws.map Effect.write) = ws := by
      unfold writes
      rw [List.filterMap_append, List.filterMap_map, List.filterMap_map]
      simp
    simp only [List.get_eq_getElem, List.getElem_zipIdx, Nat.zero_add]
    rw [e1, es, ew]
    exact ⟨e2, e3⟩
  refine ⟨forall₂_flatMap_lists (fun x b h => h.1) hz, blocks.map writes, ?_, List.flatMap_def ..⟩
  rw [List.forall₂_map_right_iff]
  have := List.forall₂_map_left_iff (f := Prod.fst) (l := sent.zipIdx) (u := blocks) (R := fun x b => Answers env x (writes b))
  rw [List.zipIdx_map_fst] at this
  exact this.mpr (hz.imp fun _ _ h => h.2)

/-- The whole way. The receiver has been started with the configured storages, whose libraries accept everything; any number of
connections are served, in any interleaving; a device has sent packets on connection `k` and its goroutine has nothing left to
do. Then the records due have been delivered, in order, to the places configured, as JSON that reads back as just these
records; and the answers have been written on that connection. -/
theorem C82_delivered (lib : Lib W E) (hok : ∀ c w, (lib c w).2 = none) (cfg : List (Bytes × Params)) (w0 : W × List Call)
    (stores : List (Saver (W × List Call) (ConnErr E))) (w1 : W × List Call)
    (hl : loadStorages (connectors (recorder lib)) [] w0 cfg = (stores, w1, none))
    (env : Env) (ce : Nat → ConnEnv) (evs : List Event) (s : System (W × List Call) (ConnErr E))
    (hs : System.exec env ce stores { world := w1 } evs = some s)
    (k : Nat) (c : ConnState) (hk : s.conns k = some c) (h1 : s.step env ce stores (.iterate k) = none)
    (h2 : s.step env ce stores (.effect k) = none) (hc : s.crashed = false)
    (sent : List (Package × List ServiceDataRecord)) (frames : List Bytes) (hr : ∀ x ∈ sent, Report env x.1 x.2)
    (hf : List.Forall₂ (fun x f => (x.1.encode env none).2 = .ok f) sent frames) (hrec : receivedOn k evs = frames.flatten) :
    ∃ calls got answers, s.world.2 = w1.2 ++ calls ∧
      List.Forall₂ NavRecord.Near (dueRecords (ce k).clock sent) got ∧ (∀ r ∈ got, Json.readNav r.toBytes = some r) ∧
      (got.flatMap (dues cfg)).Sublist (calls.map Call.due) ∧
      List.Forall₂ (Answers env) sent answers ∧ writes (doneBy s k) = answers.flatten := by
  have hd := C55_complete env ce stores w1 evs s hs k c hk h1 h2 hc
  rw [hrec] at hd
  obtain ⟨t1, answers, t2, t3⟩ := C82_totals env (ce k) sent frames hr hf (endingOf k evs)
  rw [← hd] at t1 t3
  obtain ⟨calls, e1, e2⟩ := C69_all_delivered lib hok cfg w0 stores w1 hl env ce evs s hs
  have hR : ∀ r ∈ saves (s.log.map fun x => x.2.effect), Json.readNav r.toBytes = some r :=
    exec_saves hs fun k input e => conn_saves (fun i c b => C66_saved_lossless env _ c _) input e
  have hsub : (saves (doneBy s k)).Sublist (saves (s.log.map fun x => x.2.effect)) := by
    unfold saves doneBy
    exact (List.Sublist.map _ List.filter_sublist).filterMap _
  refine ⟨calls, _, answers, e1, t1, fun r h => hR r (hsub.subset h), ?_, t2, t3⟩
  rw [e2]
  exact hsub.flatMap _

/-- The goroutine of a connection on which a device has sent packets can get to the end of them by its own steps alone. -/
theorem device_settles (stores : List (Saver W E)) (w1 : W) (env : Env) (ce : Nat → ConnEnv) (evs : List Event) (s : System W E)
    (hs : System.exec env ce stores { world := w1 } evs = some s) (hc : s.crashed = false) (k : Nat) (hk : (s.conns k).isSome)
    (sent : List (Package × List ServiceDataRecord)) (frames : List Bytes) (hr : ∀ x ∈ sent, Report env x.1 x.2)
    (hf : List.Forall₂ (fun x f => (x.1.encode env none).2 = .ok f) sent frames) (hrec : receivedOn k evs = frames.flatten) :
    ∃ (more : List Event) (s' : System W E) (c' : ConnState), (∀ ev ∈ more, ev = .iterate k ∨ ev = .effect k) ∧
      System.exec env ce stores { world := w1 } (evs ++ more) = some s' ∧ s'.crashed = false ∧ s'.conns k = some c' ∧
      s'.step env ce stores (.iterate k) = none ∧ s'.step env ce stores (.effect k) = none ∧ receivedOn k (evs ++ more) = frames.flatten := by
  obtain ⟨c, hk⟩ := Option.isSome_iff_exists.mp hk
  obtain ⟨more, s', h1, h2, h3⟩ := settle env ce stores k _ s c hk hc (Nat.le_refl _)
  have hx : System.exec env ce stores { world := w1 } (evs ++ more) = some s' := by
    rw [System.exec_append, hs, Option.bind_some, h2]
  have hrec' := (receivedOn_own (evs := evs) h1).trans hrec
  have hlive : s'.crashed = false := by
    rw [Bool.eq_false_iff]
    intro hcr
    obtain ⟨j, hj, hcj⟩ := crash_by h2 hc hcr
    have hjk : j = k := by
      rcases h1 _ hj with h | h
      · cases h
      · injection h
    subst hjk
    have hmem := (C55_isolated env ce stores w1 _ s' hx j).subset hcj
    rw [hrec'] at hmem
    obtain ⟨blocks, b1, b2, b3⟩ := C82_connection env (ce j) sent frames hr hf (endingOf j (evs ++ more))
    rw [b1] at hmem
    rcases List.mem_append.mp hmem with hmem | hmem
    · obtain ⟨b, hb, hmem⟩ := List.mem_flatten.mp hmem
      obtain ⟨i, hi, rfl⟩ := List.mem_iff_getElem.mp hb
      obtain ⟨recs, ws, e, _⟩ := b3 i sent[i] blocks[i] (by simp [b2 ▸ hi]) (by simp [hi])
      rw [e] at hmem
      simp at hmem
    · revert hmem
      generalize endingOf j (evs ++ more) = e
      cases e <;> simp [atEnd]
  rcases h3 with h3 | ⟨c', k1, k2, k3⟩
  · rw [hlive] at h3; cases h3
  · have q1 : s'.step env ce stores (.iterate k) = none := by simp [System.step, hlive, k1, k3]
    have q2 : s'.step env ce stores (.effect k) = none := by simp [System.step, hlive, k1, k2]
    exact ⟨more, s', c', h1, hx, hlive, k1, q1, q2, hrec'⟩

/-- … and nothing can prevent that: as long as the process lives, the goroutine of the connection can bring it about by its own
steps alone, whatever the others are doing. -/
theorem C82_eventually (lib : Lib W E) (hok : ∀ c w, (lib c w).2 = none) (cfg : List (Bytes × Params)) (w0 : W × List Call)
    (stores : List (Saver (W × List Call) (ConnErr E))) (w1 : W × List Call)
    (hl : loadStorages (connectors (recorder lib)) [] w0 cfg = (stores, w1, none))
    (env : Env) (ce : Nat → ConnEnv) (evs : List Event) (s : System (W × List Call) (ConnErr E))
    (hs : System.exec env ce stores { world := w1 } evs = some s) (hc : s.crashed = false) (k : Nat) (hk : (s.conns k).isSome)
    (sent : List (Package × List ServiceDataRecord)) (frames : List Bytes) (hr : ∀ x ∈ sent, Report env x.1 x.2)
    (hf : List.Forall₂ (fun x f => (x.1.encode env none).2 = .ok f) sent frames) (hrec : receivedOn k evs = frames.flatten) :
    ∃ (more : List Event) (s' : System (W × List Call) (ConnErr E)), (∀ ev ∈ more, ev = .iterate k ∨ ev = .effect k) ∧
      System.exec env ce stores { world := w1 } (evs ++ more) = some s' ∧ s'.crashed = false ∧
      s'.step env ce stores (.iterate k) = none ∧ s'.step env ce stores (.effect k) = none ∧
      ∃ calls got answers, s'.world.2 = w1.2 ++ calls ∧
        List.Forall₂ NavRecord.Near (dueRecords (ce k).clock sent) got ∧ (∀ r ∈ got, Json.readNav r.toBytes = some r) ∧
        (got.flatMap (dues cfg)).Sublist (calls.map Call.due) ∧
        List.Forall₂ (Answers env) sent answers ∧ writes (doneBy s' k) = answers.flatten := by
  obtain ⟨more, s', c', h1, hx, hlive, k1, q1, q2, hrec'⟩ := device_settles stores w1 env ce evs s hs hc k hk sent frames hr hf hrec
  exact ⟨more, s', h1, hx, hlive, q1, q2,
    C82_delivered lib hok cfg w0 stores w1 hl env ce (evs ++ more) s' hx k c' k1 q1 q2 hlive sent frames hr hf hrec'⟩

/-- Six storages and the device above: a login and a position are sent, the position is delivered to all six and three packets are
written as answers. -/
example (env : Env) (ce : Nat → ConnEnv) : ∃ (stores : List (Saver (Unit × List Call) (ConnErr Unit))) (w1 : Unit × List Call) (evs : List Event)
    (s : System (Unit × List Call) (ConnErr Unit)),
    loadStorages (connectors (recorder (fun (_ : Call) () => ((), (none : Option Unit))))) [] ((), []) sixStorages = (stores, w1, none) ∧
    System.exec env ce stores { world := w1 } evs = some s ∧ w1.2.length + 6 ≤ s.world.2.length ∧ (writes (doneBy s 0)).length = 3 := by
  obtain ⟨stores, w1, hl⟩ : ∃ stores w1,
      loadStorages (connectors (recorder (fun (_ : Call) () => ((), (none : Option Unit))))) [] ((), []) sixStorages = (stores, w1, none) := ⟨_, _, rfl⟩
  obtain ⟨frames, hf⟩ := device_frames env
  obtain ⟨more, s, _, hx, _, _, _, calls, got, answers, e1, e2, _, e3, e4, e5⟩ := C82_eventually (fun (_ : Call) () => ((), (none : Option Unit)))
    (fun _ _ => rfl) sixStorages ((), []) stores w1 hl env ce [.accept 0, .deliver 0 frames.flatten] _ rfl rfl 0 rfl deviceSends frames
    (device_reports env) hf (by simp [receivedOn])
  refine ⟨stores, w1, _, s, hl, hx, ?_, ?_⟩
  · have hg : got.length = 1 := by
      rw [← e2.length_eq]
      rfl
    have := e3.length_le
    rw [List.length_map, List.length_flatMap] at this
    obtain ⟨n, rfl⟩ := List.length_eq_one_iff.mp hg
    simp only [List.map_cons, List.map_nil, List.sum_cons, List.sum_nil, dues, List.length_map] at this
    have h6 : sixStorages.length = 6 := rfl
    rw [e1, List.length_append]
    omega
  · rw [e5]
    obtain ⟨a, as, ⟨_, _, rfl⟩, h, rfl⟩ := List.forall₂_cons_left_iff.mp e4
    obtain ⟨b, bs, ⟨_, _, rfl⟩, h', rfl⟩ := List.forall₂_cons_left_iff.mp h
    rw [List.forall₂_nil_left_iff] at h'
    subst h'
    rfl

end Egts
