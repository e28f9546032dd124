import Verif.Props.Program

/-! # What has been acknowledged survives a crash (C93) -/

namespace Egts

variable {W E : Type}

/-- If more has been written than in `a`, then `a`, the saves after it and the next write are done. -/
theorem done_upto {a rest d : List Effect} {recs : List NavRecord} {ack : Bytes} (h : d <+: a ++ recs.map .save ++ .write ack :: rest)
    (hw : (writes a).length < (writes d).length) : a ++ recs.map .save ++ [.write ack] <+: d := by
  have hb : a ++ recs.map .save ++ [.write ack] <+: a ++ recs.map .save ++ .write ack :: rest := by
    rw [List.append_cons _ _ rest]
    exact List.prefix_append _ _
  by_cases hl : d.length ≤ (a ++ recs.map Effect.save).length
  · have := List.prefix_of_prefix_length_le h (List.prefix_append _ _) hl
    obtain ⟨t, ht⟩ := this
    have := congrArg (fun l => (writes l).length) ht
    simp only [writes_append, writes_saves, List.append_nil, List.length_append] at this
    omega
  · refine List.prefix_of_prefix_length_le hb h ?_
    simp only [List.length_append, List.length_map, List.length_singleton] at hl ⊢
    omega

/-- What is done on a connection for the frames up to an acknowledged one. -/
theorem conn_upto {env : Env} {ce : ConnEnv} {frames : List Bytes} {f tail : Bytes} (hf : ∀ g ∈ frames, WellFramed g) (hn : NoPanic env ce frames)
    (hw : WellFramed f) {p : Package} {recs : List ServiceDataRecord} (ha : Accepts env ⟨f, ce.spare frames.length⟩ p recs)
    (hr : ∀ r ∈ recs, r.hasResp = false) (e : End) :
    ∃ ack rest, IsResponse env ack p.packetIdentifier (acceptance p.packetIdentifier recs) ∧
      handleConn env ce (frames.flatten ++ f ++ tail) e = handleConn env ce frames.flatten .blocked ++
        (stored p.packetIdentifier (ce.clock frames.length) (lastOr (idsBefore env ce frames frames.length) 0) recs).map .save ++ .write ack :: rest := by
  obtain ⟨ack, h1, h2⟩ := C44_acknowledged env (ce.clock frames.length) (lastOr (idsBefore env ce frames frames.length) 0) _ _ _ ha hr
  refine ⟨ack, ?_, h1, ?_⟩
  rotate_left
  · rw [(C42_pipelined env ce frames hf hn).1, List.append_assoc, handleConn_eq, handleFrom_frames env ce e 0 0 frames (f ++ tail) hf,
      (processAll_effs env ce frames hn).2]
    simp only [Nat.zero_add]
    rw [handleFrom_eq, readPacket_framed e hw]
    simp only
    rw [handlePacket_ids _ _ _ _ (by rw [ha.1]; simp)]
    simp only
    rw [h2, List.append_assoc, List.append_assoc, List.cons_append]

theorem saves_upto {env : Env} {ce : ConnEnv} {frames : List Bytes} {f : Bytes} (hf : ∀ g ∈ frames, WellFramed g) (hn : NoPanic env ce frames)
    (hw : WellFramed f) {p : Package} {recs : List ServiceDataRecord} (ha : Accepts env ⟨f, ce.spare frames.length⟩ p recs)
    (hr : ∀ r ∈ recs, r.hasResp = false) :
    saves (handleConn env ce (frames.flatten ++ f) .blocked) = saves (handleConn env ce frames.flatten .blocked) ++
      stored p.packetIdentifier (ce.clock frames.length) (lastOr (idsBefore env ce frames frames.length) 0) recs := by
  rw [(C42_pipelined env ce frames hf hn).1, handleConn_eq, handleFrom_frames env ce _ 0 0 frames f hf, (processAll_effs env ce frames hn).2]
  have hrd := readPacket_framed (t := []) .blocked hw
  rw [List.append_nil] at hrd
  simp only [Nat.zero_add]
  rw [handleFrom_eq, hrd]
  simp only
  rw [handlePacket_ids _ _ _ _ (by rw [ha.1]; simp)]
  simp only
  rw [saves_append, saves_append, handlePacket_saves, accepted_of ha]
  simp only [(beforeResp_all hr).1]
  show _ ++ (_ ++ []) = _
  rw [List.append_nil]

theorem forall₂_snoc {α β : Type} {R : α → β → Prop} {a : List α} {x : α} {l : List β} (h : List.Forall₂ R (a ++ [x]) l) :
    ∃ l' y, l = l' ++ [y] ∧ List.Forall₂ R a l' ∧ R x y := by
  induction a generalizing l with
  | nil =>
    cases h with
    | cons h1 h2 => cases h2; exact ⟨[], _, rfl, .nil, h1⟩
  | cons b a ih =>
    cases h with
    | cons h1 h2 =>
      obtain ⟨l', y, rfl, h3, h4⟩ := ih h2
      exact ⟨_ :: l', y, rfl, .cons h1 h3, h4⟩

theorem answers_length {env : Env} {sent : List (Package × List ServiceDataRecord)} {answers : List (List Bytes)}
    (h : List.Forall₂ (Answers env) sent answers) :
    answers.flatten.length = (sent.map fun y => if y.2.any (fun r => r.recordDataSet.any (·.isLogin)) then 2 else 1).sum := by
  induction h with
  | nil => rfl
  | cons h _ ih =>
    obtain ⟨ack, _, rfl⟩ := h
    rw [List.flatten_cons, List.length_append, ih, List.map_cons, List.sum_cons]
    congr 1
    split <;> rfl

/-- At every moment, also if the process dies right then: once a packet has been acknowledged, the records due for it, and for all that came
before it on its connection, have been delivered to all configured storages. (The storages accept them; the receiver does not ask, C52.) -/
theorem C93_delivered_before_acknowledged (lib : Lib W E) (hok : ∀ c w, (lib c w).2 = none) (order : List (Bytes × Params) → List (Bytes × Params))
    (hord : ∀ l, (order l).Perm l) (fs : Bytes → Option Yaml) (env : Env) (ce : Nat → ConnEnv) (argv : List Bytes) (w0 : W)
    (ss : List (Bytes × Yaml)) (hcfg : Configured argv fs ss) (evs : List ProgEvent) (p : Program (W × List Call) (ConnErr E))
    (hp : receiverRun (recorder lib) order fs env ce argv (w0, []) evs = some p) (k : Nat)
    (frames : List Bytes) (f tail : Bytes) (hrec : receivedOn k (onConns evs) = frames.flatten ++ f ++ tail)
    (hf : ∀ g ∈ frames, WellFramed g) (hn : NoPanic env (ce k) frames) (hw : WellFramed f) (q : Package) (recs : List ServiceDataRecord)
    (ha : Accepts env ⟨f, (ce k).spare frames.length⟩ q recs) (hr : ∀ r ∈ recs, r.hasResp = false) (ack : Bytes)
    (hack : (writes (p.sys.doneBy k))[(writes (handleConn env (ce k) frames.flatten .blocked)).length]? = some ack) :
    IsResponse env ack q.packetIdentifier (acceptance q.packetIdentifier recs) ∧
    ∃ cfg, StoragesOf ss cfg ∧
      ((saves (handleConn env (ce k) frames.flatten .blocked) ++
        stored q.packetIdentifier ((ce k).clock frames.length) (lastOr (idsBefore env (ce k) frames frames.length) 0) recs).flatMap (dues cfg)).Sublist
        (p.sys.world.2.map Call.due) := by
  obtain ⟨hne, ⟨path, ms, hpath, hfs, hsec⟩, huse⟩ := hcfg
  have hevs : evs ≠ [] := by
    rintro rfl
    have := congrArg List.length hrec
    have := hw.2.1
    simp [onConns, receivedOn] at *
    omega
  obtain ⟨s, stores, w1, hs, hm, _, hrun, hsys⟩ := run_started hevs hpath hp
  rw [hfs] at hs
  obtain ⟨hst, stores', w1', hl⟩ := loaded (recorder_ok hok) hord hs hsec hne huse (w0, [])
  have hm' : (stores', w1') = (stores, w1) := by
    rw [← hm]
    unfold mainStorages
    rw [hl]
  cases hm'
  obtain ⟨ack', rest, h1, h2⟩ := conn_upto (tail := tail) hf hn hw ha hr (endingOf k (onConns evs))
  have hpre := C88_isolated env ce stores w1 _ _ hsys k
  rw [hrec, h2] at hpre
  have hd := done_upto hpre (List.getElem?_eq_some_iff.mp hack).1
  have hack' : ack' = ack := by
    obtain ⟨t, ht⟩ := hd
    rw [← ht, writes_append, writes_append, writes_append, writes_saves, List.append_nil, List.append_assoc,
      List.getElem?_append_right (Nat.le_refl _), Nat.sub_self] at hack
    exact Option.some.inj hack
  subst hack'
  refine ⟨h1, order s.store, hst, ?_⟩
  obtain ⟨calls, e1, e2⟩ := C88_calls lib (order s.store) (w0, []) stores w1 hl env ce _ _ hsys
  have hld : (loadStorages (connectors (recorder lib)) [] (w0, []) (order s.store)).2.2 = none := by rw [hl]
  have hst' := C54_adds_each_once _ _ _ _ hld
  rw [hl] at hst'
  simp only [List.nil_append] at hst'
  have hacc := connectors_accept (recorder lib) (fun c w => hok c w.1) (order s.store) (loaded_ok _ _ _ hld)
  rw [← hst'] at hacc
  have ho := Fine.offers_accepted_current hacc hsys k
  have hsub : ((p.sys.offersOf k).map (fun (r, i, _) => (dues (order s.store) r)[i]?)).Sublist
      (p.sys.offers.map fun (_, r, i, _) => (dues (order s.store) r)[i]?) := by
    unfold Fine.offersOf
    rw [List.map_map]
    exact List.Sublist.map _ List.filter_sublist
  rw [ho, ← e2, hst', List.length_map, List.map_append, dues_offers] at hsub
  have := ((List.sublist_append_left _ _).trans hsub).filterMap id
  rw [show calls.map (fun c => some c.due) = (calls.map Call.due).map some by simp, List.filterMap_map, List.filterMap_map,
    show (id ∘ some : List Bytes × Option Bytes → _) = some from rfl, List.filterMap_some, List.filterMap_some] at this
  rw [e1, List.map_append]
  refine List.Sublist.trans ?_ (this.trans (List.sublist_append_right _ _))
  obtain ⟨t, ht⟩ := hd
  have first : ∀ a b : List NavRecord, (a.flatMap (dues (order s.store))).Sublist ((a ++ b).flatMap (dues (order s.store))) := by
    intro a b
    rw [List.flatMap_append]
    exact List.sublist_append_left _ _
  rw [← ht, saves_append, saves_append, saves_append, saves_saves, List.append_assoc _ (saves _) (saves _)]
  exact first _ _

/-- The same for a device that sends packets with this library: once the last of them has been answered, all records due for them have been
delivered to all configured storages, whatever has happened since. -/
theorem C93_device (lib : Lib W E) (hok : ∀ c w, (lib c w).2 = none) (order : List (Bytes × Params) → List (Bytes × Params))
    (hord : ∀ l, (order l).Perm l) (fs : Bytes → Option Yaml) (env : Env) (ce : Nat → ConnEnv) (argv : List Bytes) (w0 : W)
    (ss : List (Bytes × Yaml)) (hcfg : Configured argv fs ss) (evs : List ProgEvent) (p : Program (W × List Call) (ConnErr E))
    (hp : receiverRun (recorder lib) order fs env ce argv (w0, []) evs = some p) (k : Nat)
    (sent : List (Package × List ServiceDataRecord)) (x : Package × List ServiceDataRecord) (frames : List Bytes) (tail : Bytes)
    (hr : ∀ y ∈ sent ++ [x], Report env y.1 y.2) (hf : List.Forall₂ (fun y f => (y.1.encode env none).2 = .ok f) (sent ++ [x]) frames)
    (hrec : receivedOn k (onConns evs) = frames.flatten ++ tail)
    (hans : (sent.map fun y => if y.2.any (fun r => r.recordDataSet.any (·.isLogin)) then 2 else 1).sum < (writes (p.sys.doneBy k)).length) :
    ∃ cfg got, StoragesOf ss cfg ∧ List.Forall₂ NavRecord.Near (dueRecords (ce k).clock (sent ++ [x])) got ∧
      (∀ r ∈ got, Json.readNav r.toBytes = some r) ∧ (got.flatMap (dues cfg)).Sublist (p.sys.world.2.map Call.due) := by
  have hs : List.Forall₂ (SentAs env) (sent ++ [x]) frames := forall₂_mono_mem (fun x hx f h => ⟨hr x hx, h⟩) hf
  obtain ⟨frames, f, rfl, h1, h2⟩ := forall₂_snoc hs
  have hfs : (frames ++ [f]).flatten = frames.flatten ++ f := by simp
  rw [hfs] at hrec
  obtain ⟨hw, hn⟩ := frames_good (ce k) h1
  obtain ⟨g1, q, s', ha, hq, hl⟩ := report_accepted h2.1 h2.2 ((ce k).spare frames.length)
  have hresp := noResp_like hl h2.1.noResponse
  obtain ⟨f1, f2, ff, f3, _⟩ := forall₂_snoc hf
  obtain ⟨rfl, _⟩ := List.append_inj' ff rfl
  obtain ⟨_, answers, t2, t3⟩ := C82_totals env (ce k) sent frames (fun y hy => hr y (List.mem_append_left _ hy)) f3 .blocked
  rw [← answers_length t2, ← t3] at hans
  obtain ⟨_, cfg, c1, c2⟩ := C93_delivered_before_acknowledged lib hok order hord fs env ce argv w0 ss hcfg evs p hp k frames f tail hrec hw hn g1 q s' ha
    hresp _ (List.getElem?_eq_getElem hans)
  rw [← saves_upto hw hn g1 ha hresp] at c2
  obtain ⟨t1, _⟩ := C82_totals env (ce k) (sent ++ [x]) (frames ++ [f]) hr hf .blocked
  rw [hfs] at t1
  exact ⟨cfg, _, c1, t1, conn_saves (fun i c b => C66_saved_lossless env _ c _) _ _, c2⟩

/-- The device of C82 has been answered. Then someone else sends twelve bytes that bring the process down (C56). -/
example (env : Env) (ce : Nat → ConnEnv) (hsp : ((ce 8).spare 0).length < 243) :
    ∃ (evs : List ProgEvent) (p : Program (Unit × List Call) (ConnErr Unit)) (frames : List Bytes),
      receiverRun (recorder (fun (_ : Call) () => ((), (none : Option Unit)))) List.reverse (exampleFs (.map exampleStorages)) env ce
        [go!"-c", go!"config.yaml"] ((), []) evs = some p ∧ p.sys.crashed = true ∧
      List.Forall₂ (fun y f => (y.1.encode env none).2 = .ok f) deviceSends frames ∧ receivedOn 7 (onConns evs) = frames.flatten ∧
      (writes (p.sys.doneBy 7)).length = 3 := by
  obtain ⟨frames, hf⟩ := device_frames env
  obtain ⟨more, p, hm, h, hc, _, _, h'⟩ := C87_eventually (fun (_ : Call) () => ((), (none : Option Unit))) (fun _ _ => rfl) List.reverse
    (fun l => List.reverse_perm l) (exampleFs (.map exampleStorages)) env ce [go!"-c", go!"config.yaml"] () exampleStorages example_configured
    [.listen true, .acceptFails, .conn (.accept 7), .conn (.deliver 7 frames.flatten)] _ rfl rfl 7 (by simp [acceptedOf]) deviceSends frames
    (device_reports env) hf (by simp [receivedOn, onConns])
  have hk8 : p.sys.conns 8 = none := by
    have := (C87_serves _ _ _ _ _ _ _ _ _ h).2.2.1 8
    rw [← Option.not_isSome_iff_eq_none, this]
    simp only [acceptedOf, List.filterMap_append, List.mem_append, not_or]
    refine ⟨by simp, ?_⟩
    intro h8
    obtain ⟨ev, h1, h2⟩ := List.mem_filterMap.mp h8
    obtain ⟨ev', h3, rfl⟩ := List.mem_map.mp h1
    rcases hm ev' h3 with rfl | rfl <;> simp at h2
  obtain ⟨s, stores, w1, _, _, _, hrun, _⟩ := run_started (by simp) example_names h
  have hx := h
  rw [hrun] at hx
  obtain ⟨hv, hfine, _⟩ := Program.exec_parts hx
  have hmore : onSrv (more.map .conn) = [] := by
    unfold onSrv
    rw [List.filterMap_eq_nil_iff]
    intro ev h1
    obtain ⟨ev', h3, rfl⟩ := List.mem_map.mp h1
    rcases hm ev' h3 with rfl | rfl <;> rfl
  have hsrv : p.srv = { l := some false, phase := .accepting, started := [7], errors := 1 } := by
    have e : onSrv ([.listen true, .acceptFails, .conn (.accept 7), .conn (.deliver 7 frames.flatten)] ++ more.map .conn) =
        [.run true, .accept none, .accept (some 7)] := by
      unfold onSrv at hmore ⊢
      rw [List.filterMap_append, hmore]
      rfl
    rw [e] at hv
    exact (Option.some.inj hv).symm
  have hsv : p.sys.saving 8 = none := (Fine.exec_abs hfine).1 8 hk8
  have hd : Package.decode env none {} ⟨[1, 0, 0, 0, 0, 10, 0, 5, 0, 0, 0, 0], (ce 8).spare 0⟩ = .panic := by
    refine (C11_panics_iff env none {} _).mpr ⟨(by decide : Frame.hcsPos [1, 0, 0, 0, 0, 10, 0, 5, 0, 0, 0, 0] < 12), .inl ?_⟩
    show ([1, 0, 0, 0, 0, 10, 0, 5, 0, 0, 0, 0] ++ (ce 8).spare 0).length < 255
    simp
    omega
  have hrd := readPacket_framed (t := []) .blocked (by decide : WellFramed [1, 0, 0, 0, 0, 10, 0, 5, 0, 0, 0, 0])
  rw [List.append_nil] at hrd
  have hcrash : ∃ q, p.exec env ce stores
      [.conn (.accept 8), .conn (.deliver 8 [1, 0, 0, 0, 0, 10, 0, 5, 0, 0, 0, 0]), .conn (.iterate 8), .conn (.effect 8)] = some q ∧
      q.sys.crashed = true ∧ q.sys.log = p.sys.log ++ [(8, .other .crash)] := by
    simp [Program.exec, Program.step, hsrv, Srv.step, acceptBody, Fine.step, hc, hk8, Fine.set, hsv, ConnState.iterate, hrd,
      handlePacket_panic env _ _ hd, Fine.note]
  obtain ⟨q, hq, q1, q2⟩ := hcrash
  obtain ⟨_, _, answers, _, _, _, _, ha, hw⟩ := h'
  have hq' : ∀ l l', Program.exec env ce stores { addr := s.listenAddress, sys := { world := w1 } } l = some p →
      p.exec env ce stores l' = some q → Program.exec env ce stores { addr := s.listenAddress, sys := { world := w1 } } (l ++ l') = some q :=
    fun l l' h1 h2 => by rw [Program.exec_append, h1]; exact h2
  have hq' := hq' _ _ hx hq
  rw [← hrun] at hq'
  refine ⟨_, q, frames, hq', q1, hf, ?_, ?_⟩
  · have : onConns (more.map .conn) = more := by
      unfold onConns
      rw [List.filterMap_map]
      exact List.filterMap_some
    unfold onConns at this ⊢
    rw [List.filterMap_append, List.filterMap_append, this, receivedOn_append, receivedOn_append, show receivedOn 7 more = [] from ?_]
    · simp [receivedOn]
    · unfold receivedOn
      rw [List.flatMap_eq_nil_iff]
      intro ev h3
      rcases hm ev h3 with rfl | rfl <;> rfl
  · have : q.sys.doneBy 7 = p.sys.doneBy 7 := by simp [Fine.doneBy, q2]
    rw [this, hw, answers_length ha]
    rfl

end Egts
