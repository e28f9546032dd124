import Verif.Proofs.Program

/-! # The whole receiver, from its command line to the storages (C87) -/

namespace Egts

variable {W E : Type}

/-- The receiver gets to listen exactly if its command line names a configuration file that it can use. Otherwise nothing ever happens. -/
theorem C87_starts_iff (lib : Lib W E) (order : List (Bytes × Params) → List (Bytes × Params)) (fs : Bytes → Option Yaml)
    (env : Env) (ce : Nat → ConnEnv) (argv : List Bytes) (w : W) :
    ((∃ p, receiverRun lib order fs env ce argv w [.listen true] = some p) ↔ ∃ path doc, NamesFile argv path ∧ fs path = some doc ∧ UsableFile doc) ∧
    ((¬ ∃ path doc, NamesFile argv path ∧ fs path = some doc ∧ UsableFile doc) →
      ∀ evs p, receiverRun lib order fs env ce argv w evs = some p → evs = [] ∧ p.sys.log = [] ∧ p.sys.world = w) := by
  have key : ∀ addr ttl stores w', receiverCli lib order fs argv w = .main (.run addr ttl stores w') →
      ∃ path doc, NamesFile argv path ∧ fs path = some doc ∧ UsableFile doc := by
    intro addr ttl stores w' h
    obtain ⟨path, s, h1, h2⟩ := receiverCli_run h
    cases hd : fs path with
    | none => rw [hd] at h2; cases h2
    | some doc => exact ⟨path, doc, h1, hd, (usableFile_iff doc).mpr (by rw [← hd, h2]; rfl)⟩
  refine ⟨⟨?_, ?_⟩, ?_⟩
  · rintro ⟨p, hp⟩
    rcases receiverRun_cases hp with ⟨h, _⟩ | ⟨addr, ttl, stores, w', h, _⟩
    · cases h
    · exact key _ _ _ _ h
  · rintro ⟨path, doc, h1, h2, h3⟩
    obtain ⟨s, hs⟩ := Option.isSome_iff_exists.mp ((usableFile_iff doc).mp h3)
    rw [← h2] at hs
    unfold receiverRun
    rw [receiverCli_started lib order fs h1 hs w]
    exact ⟨_, rfl⟩
  · intro hn evs p hp
    rcases receiverRun_cases hp with ⟨h, _, _, h'⟩ | ⟨addr, ttl, stores, w', h, _⟩
    · rw [h']; exact ⟨h, rfl, rfl⟩
    · exact absurd (key _ _ _ _ h) hn

/-- It listens once, before anything else and on the address in the file. If it cannot, nothing happens after that; if it can, it goes on
accepting connections for ever, and each connection accepted is served once, in order. -/
theorem C87_serves (lib : Lib W E) (order : List (Bytes × Params) → List (Bytes × Params)) (fs : Bytes → Option Yaml)
    (env : Env) (ce : Nat → ConnEnv) (argv : List Bytes) (w : W) (evs : List ProgEvent) (p : Program W (ConnErr E))
    (h : receiverRun lib order fs env ce argv w evs = some p) :
    (evs = [] ∨ evs = [.listen false] ∨ ∃ rest, evs = .listen true :: rest ∧ ∀ ok, .listen ok ∉ rest) ∧
    p.srv.started = acceptedOf evs ∧ (∀ k, (p.sys.conns k).isSome ↔ k ∈ acceptedOf evs) ∧ (acceptedOf evs).Nodup ∧
    (evs ≠ [] → ∃ path s, NamesFile argv path ∧ configNew (fs path) = some s ∧ p.addr = s.host ++ go!":" ++ s.port) := by
  rcases receiverRun_cases h with ⟨rfl, h1, h2, h3⟩ | ⟨addr, ttl, stores, w', hc, hx⟩
  · exact ⟨.inl rfl, h2, by simp [h3, acceptedOf], by simp [acceptedOf], fun h => absurd rfl h⟩
  · obtain ⟨p1, p2, p3⟩ := Program.exec_parts hx
    have hsh := Program.exec_shape rfl hx
    obtain ⟨c1, c2, c3⟩ := Fine.exec_conns_iff p2
    refine ⟨?_, ?_, fun k => ?_, ?_, fun _ => ?_⟩
    · rcases hsh with h | h | ⟨rest, h, h', _⟩
      · exact .inl h
      · exact .inr (.inl h)
      · exact .inr (.inr ⟨rest, h, h'⟩)
    · rw [acceptedOf_eq]
      exact (C58_every_connection_handled _ _ p1).1
    · rw [c1 k, mem_acceptedOf]
      simp
    · rw [acceptedOf_conns]
      exact c2
    · obtain ⟨path, s, h1, h2⟩ := receiverCli_run hc
      rw [receiverCli_started lib order fs h1 h2 w] at hc
      refine ⟨path, s, h1, h2, ?_⟩
      injection hc with hc
      injection hc with hc
      rw [p3]
      exact hc.symm

/-- The started receiver, its storages and its world. -/
theorem run_started {lib : Lib W E} {order : List (Bytes × Params) → List (Bytes × Params)} {fs : Bytes → Option Yaml} {env : Env}
    {ce : Nat → ConnEnv} {argv : List Bytes} {w : W} {evs : List ProgEvent} {p : Program W (ConnErr E)} (hevs : evs ≠ []) {path : Bytes}
    (hpath : NamesFile argv path) (hp : receiverRun lib order fs env ce argv w evs = some p) :
    ∃ s stores w1, configNew (fs path) = some s ∧ mainStorages (connectors lib) (logConnectorSave lib s.level) w (order s.store) = (stores, w1) ∧
      receiverMain lib order fs path w = .run s.listenAddress s.emptyConnTTL stores w1 ∧
      (∀ evs, receiverRun lib order fs env ce argv w evs = Program.exec env ce stores { addr := s.listenAddress, sys := { world := w1 } } evs) ∧
      Fine.exec env ce stores { world := w1 } (onConns evs) = some p.sys := by
  rcases receiverRun_cases hp with ⟨h, _⟩ | ⟨addr, ttl, stores, w', hc, hx⟩
  · exact absurd h hevs
  · have hcli : receiverCli lib order fs argv w = .main (receiverMain lib order fs path w) := by
      obtain ⟨_, opts, h1, h2, h3⟩ := hpath
      rw [C85_file lib order fs w h1 h2, h3]
      rfl
    cases hs : configNew (fs path) with
    | none =>
      rw [hcli] at hc
      unfold receiverMain at hc
      rw [if_neg hpath.1, hs] at hc
      cases hc
    | some s =>
      have hst := receiverCli_started lib order fs hpath hs w
      rw [hst] at hc
      injection hc with hc
      injection hc with e1 e2 e3 e4
      refine ⟨s, stores, w', rfl, by rw [← e3, ← e4], ?_, ?_, (Program.exec_parts hx).2.1⟩
      · rw [hst] at hcli
        injection hcli with hcli
        rw [← hcli, e3, e4]
      · intro evs
        unfold receiverRun
        rw [hst, e3, e4]

theorem Program.quiet {env : Env} {ce : Nat → ConnEnv} {stores : List (Saver W E)} {p p0 : Program W E} {evs : List ProgEvent} {ev : Event}
    (hx : Program.exec env ce stores p0 evs = some p) (ha : p.srv.phase = .accepting) (hn : ∀ k, ev ≠ .accept k)
    (h : Program.exec env ce stores p0 (evs ++ [.conn ev]) = none) : p.sys.step env ce stores ev = none := by
  rw [Program.exec_append, hx] at h
  simp only [Option.bind_some, Program.exec] at h
  have hs : p.step env ce stores (.conn ev) = none := by
    cases hs : p.step env ce stores (.conn ev) with
    | none => rfl
    | some q => rw [hs] at h; cases h
  cases ev with
  | accept k => exact absurd rfl (hn k)
  | _ => simpa [Program.step, ha] using hs

theorem accepting_of {env : Env} {ce : Nat → ConnEnv} {stores : List (Saver W E)} {p p0 : Program W E} {evs : List ProgEvent} {k : Nat}
    (h0 : p0.srv = {}) (hx : Program.exec env ce stores p0 evs = some p) (hk : k ∈ acceptedOf evs) : p.srv.phase = .accepting := by
  rcases Program.exec_shape h0 hx with rfl | rfl | ⟨_, _, _, h⟩
  · simp [acceptedOf] at hk
  · simp [acceptedOf] at hk
  · exact h

/-- The storages of a section are loaded. -/
theorem loaded {lib : Lib W E} (hok : ∀ c w, (lib c w).2 = none) {order : List (Bytes × Params) → List (Bytes × Params)}
    (hord : ∀ l, (order l).Perm l) {ms ss : List (Bytes × Yaml)} {s : Settings} (hs : configNew (some (.map ms)) = some s)
    (hsec : ms.filter (fun x => x.1 = go!"storage") = [(go!"storage", .map ss)]) (hne : ss ≠ [])
    (huse : ∀ name u, lastOf ss name = some u → name ∈ storageNames ∧ ∀ p, u.IsParams p → ∃ c, p = some c ∧ Usable name c) (w : W) :
    StoragesOf ss (order s.store) ∧ ∃ stores w1, loadStorages (connectors lib) [] w (order s.store) = (stores, w1, none) := by
  have hlast : lastOf ms (go!"storage") = some (.map ss) := by unfold lastOf; rw [hsec]; rfl
  rcases C72_storages ms s hs (by rw [hsec]; exact Nat.le_refl 1) with ⟨h | ⟨v, ⟨t, rfl⟩, h⟩, _⟩ | ⟨ss', h1, h2, h3⟩
  · rw [hlast] at h; cases h
  · rw [hlast] at h; cases h
  · rw [hlast] at h1
    cases h1
    have hperm := hord s.store
    have hall : ∀ x ∈ order s.store, x.1 ∈ storageNames ∧ ∃ c, x.2 = some c ∧ Usable x.1 c := by
      intro x hx
      have hx := hperm.mem_iff.mp hx
      cases hu : lastOf ss x.1 with
      | none => exact absurd hx ((h3 x.1).1 hu x.2)
      | some u =>
        obtain ⟨q, hq, hqp⟩ := (h3 x.1).2 u hu
        obtain ⟨n1, n2⟩ := huse _ _ hu
        have : x.2 = q := by
          have := List.inj_on_of_nodup_map h2 hx hq rfl
          rw [this]
        rw [this]
        exact ⟨n1, n2 q hqp⟩
    have hne' : order s.store ≠ [] := by
      intro h0
      rw [h0] at hperm
      have h0 := hperm.nil_eq
      obtain ⟨x, l, rfl⟩ := List.exists_cons_of_ne_nil hne
      cases hu : lastOf (x :: l) x.1 with
      | none => simp [lastOf] at hu
      | some u =>
        obtain ⟨q, hq, _⟩ := (h3 x.1).2 u hu
        rw [← h0] at hq
        cases hq
    refine ⟨⟨(hperm.map _).nodup_iff.mpr h2, fun name => ⟨fun hn p hm => (h3 name).1 hn p (hperm.mem_iff.mp hm), fun u hu => ?_⟩⟩,
      loadStorages_ok hok _ hne' hall w⟩
    obtain ⟨q, hq, hqp⟩ := (h3 name).2 u hu
    exact ⟨q, hperm.mem_iff.mpr hq, hqp⟩

/-- The whole way. The receiver is started with a configuration file with storages whose libraries accept everything. Whatever happens
then, on any number of connections: if a device has sent packets on connection `k` and its goroutine has nothing left to do, what it has
sent has arrived. -/
theorem C87_delivered (lib : Lib W E) (hok : ∀ c w, (lib c w).2 = none) (order : List (Bytes × Params) → List (Bytes × Params))
    (hord : ∀ l, (order l).Perm l) (fs : Bytes → Option Yaml) (env : Env) (ce : Nat → ConnEnv) (argv : List Bytes) (w0 : W)
    (ss : List (Bytes × Yaml)) (hcfg : Configured argv fs ss) (evs : List ProgEvent) (p : Program (W × List Call) (ConnErr E))
    (hp : receiverRun (recorder lib) order fs env ce argv (w0, []) evs = some p) (hc : p.sys.crashed = false)
    (k : Nat) (hk : k ∈ acceptedOf evs)
    (h1 : receiverRun (recorder lib) order fs env ce argv (w0, []) (evs ++ [.conn (.iterate k)]) = none)
    (h2 : receiverRun (recorder lib) order fs env ce argv (w0, []) (evs ++ [.conn (.effect k)]) = none)
    (sent : List (Package × List ServiceDataRecord)) (frames : List Bytes) (hr : ∀ x ∈ sent, Report env x.1 x.2)
    (hf : List.Forall₂ (fun x f => (x.1.encode env none).2 = .ok f) sent frames) (hrec : receivedOn k (onConns evs) = frames.flatten) :
    Arrived env (ce k).clock sent ss p.sys.world.2 (writes (p.sys.doneBy k)) := by
  obtain ⟨hne, ⟨path, ms, hpath, hfs, hsec⟩, huse⟩ := hcfg
  have hevs : evs ≠ [] := by rintro rfl; simp [acceptedOf] at hk
  have hserve := (C87_serves (recorder lib) order fs env ce argv (w0, []) evs p hp).2.2.1 k
  obtain ⟨c, hkc⟩ := Option.isSome_iff_exists.mp (hserve.mpr hk)
  obtain ⟨s, stores, w1, hs, hm, _, hrun, hsys⟩ := run_started hevs hpath hp
  rw [hfs] at hs
  obtain ⟨hst, stores', w1', hl⟩ := loaded (recorder_ok hok) hord hs hsec hne huse (w0, [])
  have hm' : (stores', w1') = (stores, w1) := by
    rw [← hm]
    unfold mainStorages
    rw [hl]
  cases hm'
  rw [hrun] at hp h1 h2
  have ha := accepting_of rfl hp hk
  obtain ⟨calls, got, answers, e1, e2, e3, e4, e5, e6⟩ := C88_delivered lib hok (order s.store) (w0, []) stores w1 hl env ce (onConns evs) p.sys hsys k
    (hserve.mpr hk)
    (Program.quiet hp ha (fun _ h => by cases h) h1) (Program.quiet hp ha (fun _ h => by cases h) h2) hc sent frames hr hf hrec
  refine ⟨order s.store, got, answers, hst, e2, e3, ?_, e5, e6⟩
  rw [e1, List.map_append]
  exact e4.trans (List.sublist_append_right _ _)

/-- … and nothing can prevent that: as long as the process lives, the goroutine of the connection can bring it about by its own steps alone,
whatever the others are doing. -/
theorem C87_eventually (lib : Lib W E) (hok : ∀ c w, (lib c w).2 = none) (order : List (Bytes × Params) → List (Bytes × Params))
    (hord : ∀ l, (order l).Perm l) (fs : Bytes → Option Yaml) (env : Env) (ce : Nat → ConnEnv) (argv : List Bytes) (w0 : W)
    (ss : List (Bytes × Yaml)) (hcfg : Configured argv fs ss) (evs : List ProgEvent) (p : Program (W × List Call) (ConnErr E))
    (hp : receiverRun (recorder lib) order fs env ce argv (w0, []) evs = some p) (hc : p.sys.crashed = false)
    (k : Nat) (hk : k ∈ acceptedOf evs)
    (sent : List (Package × List ServiceDataRecord)) (frames : List Bytes) (hr : ∀ x ∈ sent, Report env x.1 x.2)
    (hf : List.Forall₂ (fun x f => (x.1.encode env none).2 = .ok f) sent frames) (hrec : receivedOn k (onConns evs) = frames.flatten) :
    ∃ (more : List Event) (p' : Program (W × List Call) (ConnErr E)), (∀ ev ∈ more, ev = .iterate k ∨ ev = .effect k) ∧
      receiverRun (recorder lib) order fs env ce argv (w0, []) (evs ++ more.map .conn) = some p' ∧ p'.sys.crashed = false ∧
      receiverRun (recorder lib) order fs env ce argv (w0, []) (evs ++ more.map .conn ++ [.conn (.iterate k)]) = none ∧
      receiverRun (recorder lib) order fs env ce argv (w0, []) (evs ++ more.map .conn ++ [.conn (.effect k)]) = none ∧
      Arrived env (ce k).clock sent ss p'.sys.world.2 (writes (p'.sys.doneBy k)) := by
  obtain ⟨hne, ⟨path, ms, hpath, hfs, hsec⟩, huse⟩ := hcfg
  have hevs : evs ≠ [] := by rintro rfl; simp [acceptedOf] at hk
  have hserve := (C87_serves (recorder lib) order fs env ce argv (w0, []) evs p hp).2.2.1 k
  obtain ⟨s, stores, w1, hs, hm, _, hrun, hsys⟩ := run_started hevs hpath hp
  rw [hfs] at hs
  obtain ⟨hst, stores', w1', hl⟩ := loaded (recorder_ok hok) hord hs hsec hne huse (w0, [])
  have hm' : (stores', w1') = (stores, w1) := by
    rw [← hm]
    unfold mainStorages
    rw [hl]
  cases hm'
  rw [hrun] at hp
  have ha := accepting_of rfl hp hk
  obtain ⟨more, s', m1, m2, m3, q1, q2, calls, got, answers, e1, e2, e3, e4, e5, e6⟩ := C88_eventually lib hok (order s.store) (w0, []) stores w1 hl env ce
    (onConns evs) p.sys hsys hc k (hserve.mpr hk) sent frames hr hf hrec
  have hx : Program.exec env ce stores { addr := s.listenAddress, sys := { world := w1 } } (evs ++ more.map .conn) = some { p with sys := s' } := by
    rw [Program.exec_append, hp]
    rw [Fine.exec_append, hsys] at m2
    exact Program.exec_conns m1 ha m2
  refine ⟨more, { p with sys := s' }, m1, by rw [hrun]; exact hx, m3, ?_, ?_, order s.store, got, answers, hst, e2, e3, ?_, e5, e6⟩
  · rw [hrun, Program.exec_append, hx]
    simp [Program.exec, Program.step, q1]
  · rw [hrun, Program.exec_append, hx]
    simp [Program.exec, Program.step, q2]
  · rw [e1, List.map_append]
    exact e4.trans (List.sublist_append_right _ _)

/-- A receiver with two storages. -/
def exampleStorages : List (Bytes × Yaml) :=
  [(go!"mysql", .map [(go!"table", .str (go!"points"))]),
   (go!"redis", .map [(go!"server", .str (go!"localhost:6379")), (go!"db", .int 0 (go!"0")), (go!"queue", .str (go!"egts"))])]

def exampleFs (storage : Yaml) (path : Bytes) : Option Yaml :=
  if path = go!"config.yaml" then some (.map [(go!"host", .str (go!"127.0.0.1")), (go!"port", .int 6000 (go!"6000")), (go!"storage", storage)]) else none

theorem example_names : NamesFile [go!"-c", go!"config.yaml"] (go!"config.yaml") :=
  ⟨by decide, [(go!"c", go!"config.yaml")], .option (go!"c") (go!"config.yaml") [go!"-c", go!"config.yaml"] [] [] ⟨by decide, by decide, by decide⟩ .one .nil,
    by simp, by decide⟩

theorem example_configured : Configured [go!"-c", go!"config.yaml"] (exampleFs (.map exampleStorages)) exampleStorages := by
  refine ⟨by decide, ⟨_, _, example_names, rfl, rfl⟩, ?_⟩
  intro name u hu
  have hm : (name, u) ∈ exampleStorages := by
    unfold lastOf at hu
    simp only [Option.map_eq_some_iff] at hu
    obtain ⟨x, hx, rfl⟩ := hu
    have := List.mem_filter.mp (List.mem_of_getLast? hx)
    have hn : x.1 = name := by simpa using this.2
    rw [← hn]
    exact this.1
  have text : ∀ (v : Yaml) (x y : Bytes), (v = .str y ∨ ∃ n, v = .int n y) → v.IsText x → x = y := by
    rintro v x y (rfl | ⟨n, rfl⟩) (h | ⟨m, h⟩ | ⟨m, h⟩ | h | h) <;> cases h <;> rfl
  simp only [exampleStorages, List.mem_cons, List.not_mem_nil, or_false, Prod.mk.injEq] at hm
  rcases hm with ⟨rfl, rfl⟩ | ⟨rfl, rfl⟩
  · refine ⟨by decide, ?_⟩
    rintro p (⟨⟨_, h⟩, _⟩ | ⟨ps, q, h, rfl, _⟩)
    · cases h
    · exact ⟨q, rfl, by simp [Usable]⟩
  · refine ⟨by decide, ?_⟩
    rintro p (⟨⟨_, h⟩, _⟩ | ⟨ps, q, h, rfl, hq⟩)
    · cases h
    · cases h
      obtain ⟨x1, l1, t1⟩ := (hq (go!"server")).2 _ rfl
      obtain ⟨x2, l2, t2⟩ := (hq (go!"db")).2 _ rfl
      obtain ⟨x3, l3, t3⟩ := (hq (go!"queue")).2 _ rfl
      have := text _ _ _ (.inr ⟨_, rfl⟩) t2
      subst this
      refine ⟨q, rfl, ?_⟩
      unfold Usable
      rw [if_pos rfl, l1, l3]
      refine ⟨rfl, ⟨0, [], go!"0", ?_, .inl rfl, by decide, by decide, by decide, by decide, by decide⟩, rfl⟩
      simp [setting, l2]

/-- The device of C82 connects to it, sends a login and a position, and this arrives. -/
theorem example_arrives (env : Env) (ce : Nat → ConnEnv) : ∃ (evs : List ProgEvent) (p : Program (Unit × List Call) (ConnErr Unit)),
    receiverRun (recorder (fun (_ : Call) () => ((), (none : Option Unit)))) List.reverse (exampleFs (.map exampleStorages)) env ce
      [go!"-c", go!"config.yaml"] ((), []) evs = some p ∧ evs ≠ [] ∧
    Arrived env (ce 7).clock deviceSends exampleStorages p.sys.world.2 (writes (p.sys.doneBy 7)) := by
  obtain ⟨frames, hf⟩ := device_frames env
  obtain ⟨more, p, _, h, _, _, _, h'⟩ := C87_eventually (fun (_ : Call) () => ((), (none : Option Unit))) (fun _ _ => rfl) List.reverse
    (fun l => List.reverse_perm l) (exampleFs (.map exampleStorages)) env ce [go!"-c", go!"config.yaml"] () exampleStorages example_configured
    [.listen true, .acceptFails, .conn (.accept 7), .conn (.deliver 7 frames.flatten)] _ rfl rfl 7 (by simp [acceptedOf]) deviceSends frames
    (device_reports env) hf (by simp [receivedOn, onConns])
  exact ⟨_, p, h, by simp, h'⟩

theorem served_log {lib : Lib W E} {level : Level} (hlv : level.printsInfo = true) {w w' : W × List Call}
    {l : List (Nat × NavRecord × Nat × Option (ConnErr E))} (h : Served [logConnectorSave (recorder lib) level] w l w') :
    w'.2 = w.2 ++ (l.map fun x => x.2.1.indented).map .logPacket := by
  induction l generalizing w with
  | nil => cases h; simp
  | cons x l ih =>
    obtain ⟨k, r, i, e⟩ := x
    obtain ⟨st, h1, _, h3⟩ := h
    have hst : st = logConnectorSave (recorder lib) level := List.mem_singleton.mp (List.mem_of_getElem? h1)
    rw [ih h3, hst]
    simp [logConnectorSave, hlv, recorder]

/-- Without storages in the configuration file, and at a log level that prints, what a device has sent is printed. -/
theorem C87_printed (lib : Lib W E) (order : List (Bytes × Params) → List (Bytes × Params))
    (hord : ∀ l, (order l).Perm l) (fs : Bytes → Option Yaml) (env : Env) (ce : Nat → ConnEnv) (argv : List Bytes) (w0 : W)
    (hcfg : ConfiguredLog argv fs) (evs : List ProgEvent) (p : Program (W × List Call) (ConnErr E))
    (hp : receiverRun (recorder lib) order fs env ce argv (w0, []) evs = some p) (hc : p.sys.crashed = false)
    (k : Nat) (hk : k ∈ acceptedOf evs)
    (h1 : receiverRun (recorder lib) order fs env ce argv (w0, []) (evs ++ [.conn (.iterate k)]) = none)
    (h2 : receiverRun (recorder lib) order fs env ce argv (w0, []) (evs ++ [.conn (.effect k)]) = none)
    (sent : List (Package × List ServiceDataRecord)) (frames : List Bytes) (hr : ∀ x ∈ sent, Report env x.1 x.2)
    (hf : List.Forall₂ (fun x f => (x.1.encode env none).2 = .ok f) sent frames) (hrec : receivedOn k (onConns evs) = frames.flatten) :
    Printed env (ce k).clock sent p.sys.world.2 (writes (p.sys.doneBy k)) := by
  obtain ⟨path, ms, hpath, hfs, hsec, hlev⟩ := hcfg
  have hevs : evs ≠ [] := by rintro rfl; simp [acceptedOf] at hk
  have hserve := (C87_serves (recorder lib) order fs env ce argv (w0, []) evs p hp).2.2.1 k
  obtain ⟨c, hkc⟩ := Option.isSome_iff_exists.mp (hserve.mpr hk)
  obtain ⟨s, stores, w1, hs, hm, _, hrun, hsys⟩ := run_started hevs hpath hp
  have hs' := hs
  rw [hfs] at hs'
  have h0 : s.store = [] := by
    rcases C72_storages ms s hs' (by rcases hsec with h | ⟨v, -, h⟩ <;> rw [h] <;> simp) with ⟨_, h⟩ | ⟨ss, h, _⟩
    · exact h
    · unfold lastOf at h
      rcases hsec with h' | ⟨_, ⟨t, rfl⟩, h'⟩ <;> rw [h'] at h <;> cases h
  have hprint : Prints s.logLevel := by
    obtain ⟨_, _, ⟨g1, g2⟩, _⟩ := C72_settings ms s hs'
    cases hv : lastOf ms (go!"log_level") with
    | none => rw [g1 hv]; decide
    | some v => exact hlev v _ hv (g2 v hv)
  have hst : stores = [logConnectorSave (recorder lib) s.level] ∧ w1 = (w0, []) := by
    have ho : order s.store = [] := by rw [h0]; exact List.perm_nil.mp (hord [])
    rw [ho] at hm
    cases hm
    exact ⟨rfl, rfl⟩
  have hlv : s.level.printsInfo = true := by rw [level_prints]; simpa using hprint
  rw [hrun] at hp h1 h2
  have ha := accepting_of rfl hp hk
  have q1 := Program.quiet hp ha (fun _ h => by cases h) h1
  have q2 := Program.quiet hp ha (fun _ h => by cases h) h2
  clear h1 h2
  have hd := C88_complete env ce stores w1 (onConns evs) p.sys hsys k (hserve.mpr hk) q1 q2 hc
  obtain ⟨rfl, rfl⟩ := hst
  have hacc : ∀ st ∈ [logConnectorSave (recorder lib) s.level], ∀ r w, (st r w).2 = none := by
    intro st hst r w
    rw [List.mem_singleton.mp hst]
    simp [logConnectorSave, hlv]
  have ho := Fine.offers_accepted hacc hsys k ((Fine.quiet_iff hkc hc).mp ⟨q1, q2⟩).1
  have hR : ∀ r ∈ saves (p.sys.doneBy k), Json.readNav r.indented = some r := by
    rw [hd]
    exact conn_saves (fun i c b r hr => readNav_indented r (saved_ok hr)) _ _
  rw [hrec] at hd
  obtain ⟨t1, answers, t2, t3⟩ := C82_totals env (ce k) sent frames hr hf (endingOf k (onConns evs))
  rw [← hd] at t1 t3
  refine ⟨p.sys.offers.map fun x => x.2.1.indented, _, answers, ?_, t1, ?_, t2, t3⟩
  · have := served_log hlv (C88_storages_serial _ _ _ _ _ _ hsys)
    simpa using this
  · have hsub : ((p.sys.offersOf k).map fun x => Json.readNav x.1.indented).Sublist (p.sys.offers.map fun x => Json.readNav x.2.1.indented) := by
      unfold Fine.offersOf
      rw [List.map_map]
      exact List.Sublist.map _ List.filter_sublist
    rw [List.map_map]
    have e : (p.sys.offersOf k).map (fun x => Json.readNav x.1.indented) = (saves (p.sys.doneBy k)).map some := by
      rw [ho]
      generalize saves (p.sys.doneBy k) = l at hR
      induction l with
      | nil => rfl
      | cons r l ih =>
        rw [List.flatMap_cons, List.map_append, ih fun x hx => hR x (List.mem_cons_of_mem _ hx)]
        simp [acceptedUpTo, List.range_succ, hR r (by simp)]
    rw [e] at hsub
    exact hsub

/-- … and nothing can prevent that either. -/
theorem C87_printed_eventually (lib : Lib W E) (order : List (Bytes × Params) → List (Bytes × Params))
    (hord : ∀ l, (order l).Perm l) (fs : Bytes → Option Yaml) (env : Env) (ce : Nat → ConnEnv) (argv : List Bytes) (w0 : W)
    (hcfg : ConfiguredLog argv fs) (evs : List ProgEvent) (p : Program (W × List Call) (ConnErr E))
    (hp : receiverRun (recorder lib) order fs env ce argv (w0, []) evs = some p) (hc : p.sys.crashed = false)
    (k : Nat) (hk : k ∈ acceptedOf evs)
    (sent : List (Package × List ServiceDataRecord)) (frames : List Bytes) (hr : ∀ x ∈ sent, Report env x.1 x.2)
    (hf : List.Forall₂ (fun x f => (x.1.encode env none).2 = .ok f) sent frames) (hrec : receivedOn k (onConns evs) = frames.flatten) :
    ∃ (more : List Event) (p' : Program (W × List Call) (ConnErr E)), (∀ ev ∈ more, ev = .iterate k ∨ ev = .effect k) ∧
      receiverRun (recorder lib) order fs env ce argv (w0, []) (evs ++ more.map .conn) = some p' ∧ p'.sys.crashed = false ∧
      Printed env (ce k).clock sent p'.sys.world.2 (writes (p'.sys.doneBy k)) := by
  have hcfg' := hcfg
  obtain ⟨path, ms, hpath, hfs, hsec, hlev⟩ := hcfg
  have hevs : evs ≠ [] := by rintro rfl; simp [acceptedOf] at hk
  have hserve := (C87_serves (recorder lib) order fs env ce argv (w0, []) evs p hp).2.2.1 k
  obtain ⟨s, stores, w1, hs, _, hmain, hrun, hsys⟩ := run_started hevs hpath hp
  rw [hrun] at hp
  have ha := accepting_of rfl hp hk
  obtain ⟨more, s', m1, m2, m3, _, q1, q2, m4⟩ := device_settles_fine stores w1 env ce (onConns evs) p.sys hsys hc k (hserve.mpr hk) sent frames hr hf hrec
  have hx : Program.exec env ce stores { addr := s.listenAddress, sys := { world := w1 } } (evs ++ more.map .conn) = some { p with sys := s' } := by
    rw [Program.exec_append, hp]
    rw [Fine.exec_append, hsys] at m2
    exact Program.exec_conns m1 ha m2
  have hon : onConns (evs ++ more.map .conn) = onConns evs ++ more := by
    unfold onConns
    rw [List.filterMap_append, List.filterMap_map]
    congr 1
    exact List.filterMap_some
  refine ⟨more, { p with sys := s' }, m1, by rw [hrun]; exact hx, m3, ?_⟩
  refine C87_printed lib order hord fs env ce argv w0 hcfg' (evs ++ more.map .conn) { p with sys := s' } (by rw [hrun]; exact hx) m3 k ?_ ?_ ?_
    sent frames hr hf (by rw [hon]; exact m4)
  · unfold acceptedOf at hk ⊢
    rw [List.filterMap_append]
    exact List.mem_append_left _ hk
  · rw [hrun, Program.exec_append, hx]
    simp [Program.exec, Program.step, q1]
  · rw [hrun, Program.exec_append, hx]
    simp [Program.exec, Program.step, q2]

theorem example_configured_log : ConfiguredLog [go!"-c", go!"config.yaml"] (exampleFs .null) :=
  ⟨_, _, example_names, rfl, .inr ⟨_, ⟨[], rfl⟩, rfl⟩, fun v l h => by cases h⟩

/-- The same device and a receiver without storages. -/
example (env : Env) (ce : Nat → ConnEnv) : ∃ (evs : List ProgEvent) (p : Program (Unit × List Call) (ConnErr Unit)),
    receiverRun (recorder (fun (_ : Call) () => ((), (none : Option Unit)))) List.reverse (exampleFs .null) env ce
      [go!"-c", go!"config.yaml"] ((), []) evs = some p ∧ evs ≠ [] ∧
    Printed env (ce 7).clock deviceSends p.sys.world.2 (writes (p.sys.doneBy 7)) := by
  obtain ⟨frames, hf⟩ := device_frames env
  obtain ⟨more, p, _, h, _, h'⟩ := C87_printed_eventually (fun (_ : Call) () => ((), (none : Option Unit))) List.reverse
    (fun l => List.reverse_perm l) (exampleFs .null) env ce [go!"-c", go!"config.yaml"] () example_configured_log
    [.listen true, .acceptFails, .conn (.accept 7), .conn (.deliver 7 frames.flatten)] _ rfl rfl 7 (by simp [acceptedOf]) deviceSends frames
    (device_reports env) hf (by simp [receivedOn, onConns])
  exact ⟨_, p, h, by simp, h'⟩

/-- A command line that names a missing file. -/
example (env : Env) (ce : Nat → ConnEnv) : ¬ ∃ path doc, NamesFile [go!"-c=other"] path ∧ exampleFs .null path = some doc ∧ UsableFile doc := by
  intro h
  obtain ⟨p, hp⟩ := (C87_starts_iff (fun (_ : Call) () => ((), (none : Option Unit))) id (exampleFs .null) env ce [go!"-c=other"] ()).1.mpr h
  have : receiverRun (fun (_ : Call) () => ((), (none : Option Unit))) id (exampleFs .null) env ce [go!"-c=other"] () [.listen true] = none := rfl
  rw [this] at hp
  cases hp

end Egts
