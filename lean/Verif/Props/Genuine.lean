import Verif.Proofs.Genuine

/-! # Nothing is delivered but what was received, and nothing twice (C92) -/

namespace Egts

variable {W E : Type}

theorem receiverRun_fine {lib : Lib W E} {order : List (Bytes × Params) → List (Bytes × Params)} {fs : Bytes → Option Yaml} {env : Env}
    {ce : Nat → ConnEnv} {argv : List Bytes} {w : W} {evs : List ProgEvent} {p : Program W (ConnErr E)} {path : Bytes} {s : Settings}
    (hpath : NamesFile argv path) (hs : configNew (fs path) = some s) (hp : receiverRun lib order fs env ce argv w evs = some p) :
    Fine.exec env ce (mainStorages (connectors lib) (logConnectorSave lib s.level) w (order s.store)).1
      { world := (mainStorages (connectors lib) (logConnectorSave lib s.level) w (order s.store)).2 } (onConns evs) = some p.sys := by
  unfold receiverRun at hp
  rw [receiverCli_started lib order fs hpath hs w] at hp
  exact (Program.exec_parts hp).2.1

/-- In every history of the receiver, whatever its libraries answer: the calls that deliver something deliver, one record each, records to
the configured storages (or the log). Of what any one connection has to save, each storage gets any record at most once, and in order. -/
theorem C92_in_order (lib : Lib W E) (order : List (Bytes × Params) → List (Bytes × Params)) (hord : ∀ l, (order l).Perm l)
    (fs : Bytes → Option Yaml) (env : Env) (ce : Nat → ConnEnv) (argv : List Bytes) (w0 : W) (path : Bytes) (s : Settings)
    (hpath : NamesFile argv path) (hs : configNew (fs path) = some s) (evs : List ProgEvent) (p : Program (W × List Call) (ConnErr E))
    (hp : receiverRun (recorder lib) order fs env ce argv (w0, []) evs = some p) :
    ∃ l : List (Nat × Bytes × NavRecord),
      List.Forall₂ (fun c x => Delivers s.store x.2.1 x.2.2 c) (p.sys.world.2.filter fun c => c.payload.isSome) l ∧
      ∀ k name, ((l.filter fun x => x.1 = k ∧ x.2.1 = name).map (·.2.2)).Sublist
        (saves (handleConn env (ce k) (receivedOn k (onConns evs)) (endingOf k (onConns evs)))) := by
  have hx := receiverRun_fine hpath hs hp
  obtain ⟨h1, done, h2, h3, h4⟩ := mainStorages_calls lib (logConnectorSave (recorder lib) s.level) (order s.store) (w0, []) (by simp)
  have hperm := hord s.store
  refine fine_deliveries lib s.level s.store done (fun x hx => hperm.mem_iff.mp (h2.subset hx)) h3 ?_ _ ?_ _ h1 env ce _ _ hx
  · exact ((hperm.map (·.1)).nodup_iff.mpr (configNew_nodup hs)).sublist (h2.sublist.map _)
  · rcases h4 with h4 | h4
    · rw [h4]; exact List.prefix_append _ _
    · rw [h4]

/-- Every delivery, to a storage or to the log, is JSON that reads back as a plausible record which is to be stored for an accepted packet
received on one of the connections. Nothing else is ever delivered. -/
theorem C92_genuine (lib : Lib W E) (order : List (Bytes × Params) → List (Bytes × Params)) (hord : ∀ l, (order l).Perm l)
    (fs : Bytes → Option Yaml) (env : Env) (ce : Nat → ConnEnv) (argv : List Bytes) (w0 : W) (evs : List ProgEvent)
    (p : Program (W × List Call) (ConnErr E)) (hp : receiverRun (recorder lib) order fs env ce argv (w0, []) evs = some p) :
    ∀ c ∈ p.sys.world.2, ∀ b, c.payload = some b → ∃ r, Json.readNav b = some r ∧
      (∃ k ∈ acceptedOf evs, MadeFrom env (ce k) (receivedOn k (onConns evs)) r) ∧
      (0 ≤ r.latitude ∧ r.latitude ≤ 90) ∧ (0 ≤ r.longitude ∧ r.longitude ≤ 180) ∧ r.speed.toNat ≤ 1638 ∧
      1262304000 ≤ r.navigationTimestamp ∧ r.navigationTimestamp < 1262304000 + 2 ^ 32 := by
  intro c hc b hb
  by_cases hcfg : ∃ path s, NamesFile argv path ∧ configNew (fs path) = some s
  · obtain ⟨path, s, hpath, hs⟩ := hcfg
    obtain ⟨l, h1, h2⟩ := C92_in_order lib order hord fs env ce argv w0 path s hpath hs evs p hp
    have hm : c ∈ p.sys.world.2.filter fun c => c.payload.isSome := List.mem_filter.mpr ⟨hc, by simp [hb]⟩
    obtain ⟨n, hn, hcn⟩ := List.getElem_of_mem hm
    have hl := h1.length_eq
    have hd := (List.forall₂_iff_get.mp h1).2 n hn (by omega)
    simp only [List.get_eq_getElem, hcn] at hd
    have hx : l[n]'(by omega) ∈ l := List.getElem_mem _
    generalize l[n]'(by omega) = x at hd hx
    have hr : x.2.2 ∈ saves (handleConn env (ce x.1) (receivedOn x.1 (onConns evs)) (endingOf x.1 (onConns evs))) :=
      (h2 x.1 x.2.1).subset (List.mem_map.mpr ⟨x, List.mem_filter.mpr ⟨hx, by simp⟩, rfl⟩)
    have hmade := conn_made hr
    obtain ⟨q1, q2, q3, q4, _⟩ := C67_plausible_connection env _ _ _ _ hr
    refine ⟨x.2.2, ?_, ⟨x.1, ?_, hmade⟩, q1, q2, q3, q4.1, q4.2⟩
    · have := hd.1
      rw [hb] at this
      exact this
    · rw [mem_acceptedOf]
      rcases received_accepted (receiverRun_fine hpath hs hp) hmade.ne_nil with h | h
      · cases h
      · exact h
  · rcases receiverRun_cases hp with ⟨_, _, _, h⟩ | ⟨addr, ttl, stores, w', h, _⟩
    · rw [h] at hc; cases hc
    · obtain ⟨path, s, h1, h2⟩ := receiverCli_run h
      exact absurd ⟨path, s, h1, h2⟩ hcfg

/-- There are histories with deliveries: that of the device in C87. -/
example (env : Env) (ce : Nat → ConnEnv) : ∃ (evs : List ProgEvent) (p : Program (Unit × List Call) (ConnErr Unit)),
    receiverRun (recorder (fun (_ : Call) () => ((), (none : Option Unit)))) List.reverse (exampleFs (.map exampleStorages)) env ce
      [go!"-c", go!"config.yaml"] ((), []) evs = some p ∧ ∃ c ∈ p.sys.world.2, c.payload.isSome := by
  obtain ⟨evs, p, h, _, cfg, got, answers, h1, h2, _, h3, _⟩ := example_arrives env ce
  refine ⟨evs, p, h, ?_⟩
  have hg : got ≠ [] := by
    have h4 : (dueRecords (ce 7).clock deviceSends).length = 1 := rfl
    have := h2.length_eq
    intro h0
    rw [h0, h4] at this
    cases this
  obtain ⟨r, got, rfl⟩ := List.exists_cons_of_ne_nil hg
  obtain ⟨q, hq, _⟩ := (h1.2 (go!"mysql")).2 _ rfl
  have : (placeOf (go!"mysql") (q.getD []), some r.toBytes) ∈ p.sys.world.2.map Call.due := h3.subset
    (List.mem_flatMap.mpr ⟨r, List.mem_cons_self, List.mem_map.mpr ⟨_, hq, rfl⟩⟩)
  obtain ⟨c, hc, hd⟩ := List.mem_map.mp this
  exact ⟨c, hc, by rw [(Prod.mk.inj hd).2]; rfl⟩

end Egts
