import Verif.Props.Connectors
import Verif.Proofs.JsonIndent
import Verif.Proofs.Main

/-! # Configuration and start (C71, C72, C74) -/

namespace Egts

variable {W E : Type}

/-! ## C72 -/

/-- A configuration file is accepted exactly if each value is of the kind that its key demands; other keys are ignored. -/
theorem C72_accepts_iff (ms : List (Bytes × Yaml)) : (configNew (some (.map ms))).isSome ↔ ∀ x ∈ ms, WellTyped x.1 x.2 :=
  read_isSome_iff ms {}

/-- The settings are those in the file: the texts under `host`, `port` and `log_level`, the number under `conn_ttl`, and
zero or the empty text where a key is missing. -/
theorem C72_settings (ms : List (Bytes × Yaml)) (s : Settings) (h : configNew (some (.map ms)) = some s) :
    ((lastOf ms (go!"host") = none → s.host = []) ∧ ∀ v, lastOf ms (go!"host") = some v → v.IsText s.host) ∧
    ((lastOf ms (go!"port") = none → s.port = []) ∧ ∀ v, lastOf ms (go!"port") = some v → v.IsText s.port) ∧
    ((lastOf ms (go!"log_level") = none → s.logLevel = []) ∧ ∀ v, lastOf ms (go!"log_level") = some v → v.IsText s.logLevel) ∧
    ((lastOf ms (go!"conn_ttl") = none → s.connTTL = 0) ∧ ∀ v, lastOf ms (go!"conn_ttl") = some v → v.IsNumber s.connTTL) := by
  obtain ⟨h1, h2, h3, h4, _⟩ := read_spec ms {} s h
  exact ⟨h1, h2, h3, h4⟩

/-- The storages are those under `storage`, each once, with the settings given there. -/
theorem C72_storages (ms : List (Bytes × Yaml)) (s : Settings) (h : configNew (some (.map ms)) = some s)
    (h1 : (ms.filter (fun x => x.1 = go!"storage")).length ≤ 1) :
    (lastOf ms (go!"storage") = none ∨ ∃ v, v.IsNothing ∧ lastOf ms (go!"storage") = some v) ∧ s.store = [] ∨
    ∃ ss, lastOf ms (go!"storage") = some (.map ss) ∧ (s.store.map (·.1)).Nodup ∧
      ∀ name, (lastOf ss name = none → ∀ p, (name, p) ∉ s.store) ∧
        ∀ u, lastOf ss name = some u → ∃ p, (name, p) ∈ s.store ∧ u.IsParams p := by
  rcases read_store ms {} s h rfl h1 with h | ⟨ss, h2, h3⟩
  · exact .inl h
  · obtain ⟨h4, h5⟩ := toStore_spec ss [] s.store h3
    refine .inr ⟨ss, h2, h4 (by simp), fun name => ⟨fun hn p => ?_, fun u hu => ?_⟩⟩
    · rw [(h5 name).1 hn]; simp
    · obtain ⟨p, hp, hu⟩ := (h5 name).2 u hu
      exact ⟨p, (hp p).mpr rfl, hu⟩

/-- The receiver starts exactly if a file is named and accepted; it then listens on the host and port of the file. -/
theorem C72_listens (lib : Lib W E) (order : List (Bytes × Params) → List (Bytes × Params)) (fs : Bytes → Option Yaml) (path : Bytes) (w : W) :
    (receiverMain lib order fs path w ≠ .fatal ↔ path ≠ [] ∧ (configNew (fs path)).isSome) ∧
    ∀ addr ttl stores w', receiverMain lib order fs path w = .run addr ttl stores w' →
      ∃ s, configNew (fs path) = some s ∧ addr = s.host ++ go!":" ++ s.port := by
  unfold receiverMain
  by_cases hp : path = []
  · simp [hp]
  · simp only [if_neg hp]
    cases configNew (fs path) with
    | none => simp
    | some s =>
      refine ⟨by simp [hp], ?_⟩
      intro addr ttl stores w' h
      cases h
      exact ⟨s, rfl, rfl⟩

/-- The TTL is the number of seconds in the file. Missing: numbers of seconds that do not fit into a `time.Duration`
(`C72_false`). -/
theorem C72_ttl_partial (lib : Lib W E) (order : List (Bytes × Params) → List (Bytes × Params)) (fs : Bytes → Option Yaml) (path : Bytes) (w w' : W)
    (addr : Bytes) (ttl : Int) (stores : List (Saver W (ConnErr E))) (h : receiverMain lib order fs path w = .run addr ttl stores w')
    (s : Settings) (hs : configNew (fs path) = some s) (hr : -9223372036 ≤ s.connTTL ∧ s.connTTL ≤ 9223372036) :
    ttl = s.connTTL * 1000000000 := by
  unfold receiverMain at h
  split at h
  · cases h
  · rw [hs] at h
    cases h
    show Int.bmod _ _ = _
    rw [Int.bmod_eq_of_le] <;> omega

/-- C72 is false: with a `conn_ttl` of 9223372037 seconds the TTL of the server is negative. -/
theorem C72_false (lib : Lib W E) (order : List (Bytes × Params) → List (Bytes × Params)) (w : W) :
    ∃ doc s addr ttl stores w', configNew (some doc) = some s ∧ s.connTTL = 9223372037 ∧
      receiverMain lib order (fun _ => some doc) (go!"config.yaml") w = .run addr ttl stores w' ∧ ttl < 0 := by
  refine ⟨.map [(go!"conn_ttl", .int 9223372037 (go!"9223372037"))], _, _, _, _, _, rfl, rfl, rfl, ?_⟩
  decide

/-- The example in the README and the shipped files do not set the TTL at all: their key is `con_live_sec`, which is ignored. -/
theorem C72_false_readme (lib : Lib W E) (order : List (Bytes × Params) → List (Bytes × Params)) (w : W) :
    ∃ stores w', receiverMain lib order (fun _ => some (.map [(go!"host", .str (go!"127.0.0.1")), (go!"port", .str (go!"6000")),
      (go!"con_live_sec", .int 10 (go!"10")), (go!"log_level", .str (go!"DEBUG")), (go!"storage", .null)])) (go!"config.yaml") w =
        .run (go!"127.0.0.1:6000") 0 stores w' := ⟨_, _, rfl⟩

/-- the file in the test of the configuration (`config_test.go:11-31`), with a key given twice and an unknown one -/
def exampleDoc : List (Bytes × Yaml) :=
  [(go!"host", .str (go!"127.0.0.1")), (go!"port", .int 5020 (go!"5020")), (go!"conn_ttl", .int 5 (go!"5")), (go!"conn_ttl", .int 10 (go!"10")),
   (go!"log_level", .str (go!"DEBUG")), (go!"plugin", .str (go!"x")),
   (go!"storage", .map [(go!"redis", .null), (go!"rabbitmq", .map [(go!"host", .str (go!"localhost")), (go!"port", .int 5672 (go!"5672"))])])]

example : ∃ s, configNew (some (.map exampleDoc)) = some s ∧ s.connTTL = 10 ∧ s.port = go!"5020" ∧
    s.store = [(go!"redis", none), (go!"rabbitmq", some [(go!"host", go!"localhost"), (go!"port", go!"5672")])] := ⟨_, rfl, rfl, rfl, rfl⟩

/-- Scalars that are no strings keep the text they are written as, even `null`; of `conn_ttl: 2.9` only the 2 is used. -/
example : ∃ s, configNew (some (.map [(go!"host", .null (go!"~")), (go!"port", .float (121 / 10) (go!"12.10")), (go!"conn_ttl", .float (29 / 10) (go!"2.9")),
    (go!"log_level", .other (go!"yes"))])) = some s ∧ s.host = go!"~" ∧ s.port = go!"12.10" ∧ s.connTTL = 2 ∧ s.logLevel = go!"yes" :=
  ⟨⟨go!"~", go!"12.10", 2, go!"yes", []⟩, by with_unfolding_all rfl, rfl, rfl, rfl, rfl⟩

example : ¬ WellTyped (go!"conn_ttl") (.str (go!"10")) := by
  rintro ⟨_, h, _⟩
  obtain ⟨n, h⟩ := h rfl
  rw [isNumber_iff] at h
  cases h

/-- The log level is the one that is named, in capitals; any other name, or none, means Info. -/
theorem C72_level (s : Settings) :
    (s.level = .debug ↔ s.logLevel = go!"DEBUG") ∧ (s.level = .warn ↔ s.logLevel = go!"WARN") ∧ (s.level = .error ↔ s.logLevel = go!"ERROR") ∧
    (s.level = .info ↔ s.logLevel ∉ [go!"DEBUG", go!"WARN", go!"ERROR"]) := by
  unfold Settings.level
  split
  · rename_i h; rw [h]; decide
  · split
    · rename_i h; rw [h]; decide
    · split
      · rename_i h; rw [h]; decide
      · split
        · rename_i h; rw [h]; decide
        · rename_i h1 h2 h3 h4
          simp [h1, h3, h4]

/-- Small letters mean nothing. -/
example : (Settings.mk [] [] 0 (go!"debug") []).level = .info := by decide

/-! ## C71 -/

theorem level_prints (s : Settings) : s.level.printsInfo = decide (Prints s.logLevel) := by
  unfold Settings.level Prints
  split
  · rename_i h; rw [h]; rfl
  · split
    · rename_i h; rw [h]; rfl
    · split
      · rename_i h; rw [h]; rfl
      · split
        · rename_i h; rw [h]; rfl
        · rename_i h3 h4
          simp [Level.printsInfo, h3, h4]

/-- Without storages in the configuration every record saved is printed: the calls made are one entry of the log for each
record, in order, and the entry reads back, as JSON, as the record. Missing: log levels WARN and ERROR (`C71_false`). -/
theorem C71_printed_partial (lib : Lib W E) (order : List (Bytes × Params) → List (Bytes × Params)) (hord : ∀ l, (order l).Perm l)
    (fs : Bytes → Option Yaml) (path : Bytes) (w0 w1 : W × List Call) (addr : Bytes) (ttl : Int)
    (stores : List (Saver (W × List Call) (ConnErr E))) (h : receiverMain (recorder lib) order fs path w0 = .run addr ttl stores w1)
    (s : Settings) (hs : configNew (fs path) = some s) (h0 : s.store = []) (hp : Prints s.logLevel)
    (env : Env) (ce : Nat → ConnEnv) (evs : List Event) (sys : System (W × List Call) (ConnErr E))
    (hsys : System.exec env ce stores { world := w1 } evs = some sys) :
    ∃ entries : List Bytes, sys.world.2 = w0.2 ++ entries.map .logPacket ∧
      entries.map Json.readNav = (saves (sys.log.map fun x => x.2.effect)).map some := by
  have hst : stores = [logConnectorSave (recorder lib) s.level] ∧ w1 = w0 := by
    have ho : order s.store = [] := by rw [h0]; exact List.perm_nil.mp (hord [])
    unfold receiverMain at h
    split at h
    · cases h
    · rw [hs] at h
      simp only [ho] at h
      cases h
      exact ⟨rfl, rfl⟩
  obtain ⟨rfl, rfl⟩ := hst
  have hlv : s.level.printsInfo = true := by rw [level_prints]; simpa using hp
  have hser := C55_storages_serial env ce _ _ evs sys hsys
  have hrun : ∀ (effs : List Effect) (w : W × List Call),
      (runEffs [logConnectorSave (recorder lib) s.level] w effs).1.2 = w.2 ++ ((saves effs).map NavRecord.indented).map .logPacket := by
    intro effs
    induction effs with
    | nil => intro w; simp [runEffs, saves]
    | cons x effs ih =>
      intro w
      by_cases hx : ∃ r, x = .save r
      · obtain ⟨r, rfl⟩ := hx
        show (runEffs _ (Repository.save [logConnectorSave (recorder lib) s.level] r w).1 effs).1.2 = _
        rw [ih]
        have : (Repository.save [logConnectorSave (recorder lib) s.level] r w).1.2 = w.2 ++ [.logPacket r.indented] := by
          simp [Repository.save, logConnectorSave, hlv, recorder]
        rw [this]
        simp [saves]
      · cases x <;> first | exact absurd ⟨_, rfl⟩ hx | exact ih w
  have hw := hrun (sys.log.map fun x => x.2.effect) w1
  rw [hser] at hw
  refine ⟨_, hw, ?_⟩
  rw [List.map_map]
  apply List.map_congr_left
  exact exec_saves hsys fun k input e => conn_saves (fun i c b r hr => readNav_indented r (saved_ok hr)) input e

/-- C71 is false: at log level WARN or ERROR a receiver without storages discards every record, and says that it has been
saved. -/
theorem C71_false (lib : Lib W E) (order : List (Bytes × Params) → List (Bytes × Params)) (hord : ∀ l, (order l).Perm l) (l : Bytes)
    (hl : l = go!"WARN" ∨ l = go!"ERROR") (w : W) :
    ∃ addr ttl stores, receiverMain lib order (fun _ => some (.map [(go!"port", .str (go!"6000")), (go!"log_level", .str l)])) (go!"config.yaml") w =
        .run addr ttl stores w ∧ ∀ r w, Repository.save stores r w = (w, none) := by
  have ho : order [] = [] := List.perm_nil.mp (hord [])
  have hc : configNew (some (.map [(go!"port", .str (go!"6000")), (go!"log_level", .str l)])) = some { port := go!"6000", logLevel := l } := rfl
  refine ⟨_, _, _, by
    unfold receiverMain
    rw [if_neg (by decide), hc]
    simp only [ho]
    rfl, ?_⟩
  intro r w
  rcases hl with rfl | rfl <;> rfl

/-! ## C74 -/

theorem save_append (a b : List (Saver W E)) (r : NavRecord) (w : W) :
    Repository.save (a ++ b) r w =
      match Repository.save a r w with
      | (w, none) => Repository.save b r w
      | (w, some e) => (w, some e) := by
  induction a generalizing w with
  | nil => rfl
  | cons x a ih =>
    simp only [List.cons_append, Repository.save]
    rcases x r w with ⟨w1, _ | e⟩
    · exact ih w1
    · rfl

/-- From the configuration file to the storages: the receiver offers each record it saves to the storages loaded, and to
the log if some storage could not be loaded or there are none. An attempt that succeeds has delivered the record to all of
them; one that fails has delivered it to a beginning of them. -/
theorem C74_config_to_storages (lib : Lib W E) (order : List (Bytes × Params) → List (Bytes × Params))
    (fs : Bytes → Option Yaml) (path : Bytes) (w0 w1 : W × List Call) (addr : Bytes) (ttl : Int)
    (stores : List (Saver (W × List Call) (ConnErr E))) (h : receiverMain (recorder lib) order fs path w0 = .run addr ttl stores w1) :
    ∃ s k log, configNew (fs path) = some s ∧ (log = false → k = (order s.store).length ∧ order s.store ≠ []) ∧
      (log = true → order s.store = [] ∨ ∃ hk : k < (order s.store).length,
        (order s.store)[k].1 ∉ storageNames ∨
        ∃ w, ((connectors (recorder lib)).init (order s.store)[k].1 (order s.store)[k].2 w).2 ≠ none) ∧
      ∀ (env : Env) (ce : Nat → ConnEnv) (evs : List Event) (sys : System (W × List Call) (ConnErr E)),
        System.exec env ce stores { world := w1 } evs = some sys →
        ∃ chunks : List (List Call), sys.world.2 = w1.2 ++ chunks.flatten ∧
          List.Forall₂ (fun (calls : List Call) (a : NavRecord × Option (ConnErr E)) =>
            calls.map Call.due <+: duesWithLog ((order s.store).take k) (log && decide (Prints s.logLevel)) a.1 ∧
            (a.2 = none → calls.map Call.due = duesWithLog ((order s.store).take k) (log && decide (Prints s.logLevel)) a.1))
            chunks (attempts (sys.log.map (·.2))) := by
  have hcfg : ∃ s, configNew (fs path) = some s ∧ mainStorages (connectors (recorder lib)) (logConnectorSave (recorder lib) s.level) w0 (order s.store) = (stores, w1) := by
    unfold receiverMain at h
    split at h
    · cases h
    · cases hc : configNew (fs path) with
      | none => rw [hc] at h; cases h
      | some s => rw [hc] at h; cases h; exact ⟨s, rfl, rfl⟩
  obtain ⟨s, hs, hm⟩ := hcfg
  refine ⟨s, ?_⟩
  generalize order s.store = cfg at hm ⊢
  have fin : ∀ (k : Nat) (log : Bool), (∀ x ∈ cfg.take k, x.1 ∈ storageNames ∧ x.2.isSome) →
      stores = (cfg.take k).map (fun x => (connectors (recorder lib)).saver x.1 x.2) ++ (if log then [logConnectorSave (recorder lib) s.level] else []) →
      ∀ (env : Env) (ce : Nat → ConnEnv) (evs : List Event) (sys : System (W × List Call) (ConnErr E)),
        System.exec env ce stores { world := w1 } evs = some sys →
        ∃ chunks : List (List Call), sys.world.2 = w1.2 ++ chunks.flatten ∧
          List.Forall₂ (fun (calls : List Call) (a : NavRecord × Option (ConnErr E)) =>
            calls.map Call.due <+: duesWithLog (cfg.take k) (log && decide (Prints s.logLevel)) a.1 ∧
            (a.2 = none → calls.map Call.due = duesWithLog (cfg.take k) (log && decide (Prints s.logLevel)) a.1))
            chunks (attempts (sys.log.map (·.2))) := by
    intro k log hn hst env ce evs sys hsys
    have hser := C55_storages_serial env ce stores w1 evs sys hsys
    have key := runEffs_calls (stores := stores) (P := fun (calls : List Call) (a : NavRecord × Option (ConnErr E)) =>
            calls.map Call.due <+: duesWithLog (cfg.take k) (log && decide (Prints s.logLevel)) a.1 ∧
            (a.2 = none → calls.map Call.due = duesWithLog (cfg.take k) (log && decide (Prints s.logLevel)) a.1)) (by
      intro r w
      obtain ⟨calls, c1, c2, c3, _⟩ := C69_record lib (cfg.take k) hn r w
      have hsa := save_append ((cfg.take k).map fun x => (connectors (recorder lib)).saver x.1 x.2)
        (if log then [logConnectorSave (recorder lib) s.level] else []) r w
      rw [← hst] at hsa
      rcases hsv : Repository.save ((cfg.take k).map fun x => (connectors (recorder lib)).saver x.1 x.2) r w with ⟨w', e⟩
      rw [hsv] at c1 c3 hsa
      rw [hsa]
      simp only
      cases e with
      | some e =>
        exact ⟨calls, c1, c2.trans (List.prefix_append _ _), fun h => by cases h⟩
      | none =>
        have c3 := c3 rfl
        have hlv : s.level.printsInfo = decide (Prints s.logLevel) := level_prints s
        cases log with
        | false =>
          refine ⟨calls, by simpa [Repository.save] using c1, ?_, fun _ => ?_⟩
          · simp [duesWithLog, c3]
          · simp [duesWithLog, c3]
        | true =>
          by_cases hp : Prints s.logLevel
          · refine ⟨calls ++ [.logPacket r.indented], ?_, ?_, fun _ => ?_⟩
            · simp only at c1
              simp [Repository.save, logConnectorSave, hlv, hp, recorder, c1]
            · simp [duesWithLog, c3, hp, Call.due, Call.place, Call.payload]
            · simp [duesWithLog, c3, hp, Call.due, Call.place, Call.payload]
          · refine ⟨calls, ?_, ?_, fun _ => ?_⟩
            · simp only at c1
              simp [Repository.save, logConnectorSave, hlv, hp, c1]
            · simp [duesWithLog, c3, hp]
            · simp [duesWithLog, c3, hp])
      (sys.log.map fun x => x.2.effect) w1
    rw [hser] at key
    exact key
  have hentry : ∀ i, EntryOk (connectors (recorder lib)) cfg w0 i → ∀ hi : i < cfg.length, cfg[i].1 ∈ storageNames ∧ cfg[i].2.isSome := by
    intro i he hi
    obtain ⟨h1, h2⟩ := he _ (List.getElem?_eq_getElem hi)
    exact ⟨h1, init_settings _ _ h1 _ _ h2⟩
  by_cases hl : (loadStorages (connectors (recorder lib)) [] w0 cfg).2.2 = none
  · obtain ⟨hne, hok⟩ := (C54_succeeds_iff _ _ _ _).mp hl
    refine ⟨cfg.length, false, hs, fun _ => ⟨rfl, hne⟩, fun h => (by cases h), fin cfg.length false ?_ ?_⟩
    · rw [List.take_length]
      exact loaded_ok _ cfg w0 hl
    · have := C54_adds_each_once _ _ _ _ hl
      unfold mainStorages at hm
      rcases hx : loadStorages (connectors (recorder lib)) [] w0 cfg with ⟨st, w', e⟩
      rw [hx] at hl hm this
      simp only at hl
      subst hl
      cases hm
      simpa using this
  · by_cases hne : cfg = []
    · subst hne
      refine ⟨0, true, hs, fun h => (by cases h), fun _ => .inl rfl, fin 0 true (by simp) ?_⟩
      unfold mainStorages at hm
      cases hm
      rfl
    · have hex : ∃ i, ¬ EntryOk (connectors (recorder lib)) cfg w0 i := by
        by_contra hc
        push Not at hc
        exact hl ((C54_succeeds_iff _ _ _ _).mpr ⟨hne, fun i _ => hc i⟩)
      classical
      have hk := Nat.find_spec hex
      have hlt : ∀ j < Nat.find hex, EntryOk (connectors (recorder lib)) cfg w0 j := fun j hj => not_not.mp (Nat.find_min hex hj)
      generalize Nat.find hex = k at hk hlt
      have hkl : k < cfg.length := by
        by_contra hc
        exact hk (fun x hx => by rw [List.getElem?_eq_none (by omega)] at hx; cases hx)
      refine ⟨k, true, hs, fun h => (by cases h), fun _ => .inr ⟨hkl, ?_⟩, fin k true ?_ ?_⟩
      · by_contra hc
        push Not at hc
        refine hk (fun x hx => ?_)
        rw [List.getElem?_eq_getElem hkl] at hx
        cases hx
        exact ⟨hc.1, hc.2 _⟩
      · intro x hx
        obtain ⟨i, hi, rfl⟩ := List.getElem_of_mem hx
        rw [List.length_take] at hi
        rw [List.getElem_take]
        exact hentry i (hlt i (by omega)) (by omega)
      · have := C54_after_failure (connectors (recorder lib)) (logConnectorSave (recorder lib) s.level) w0 cfg k hlt hk
        rw [hm] at this
        simpa using this

/-- In particular, at a log level that prints, nothing is lost silently: every attempt to save a record that is reported as a
success has delivered the JSON text of the record somewhere. -/
theorem C74_not_silent (lib : Lib W E) (order : List (Bytes × Params) → List (Bytes × Params))
    (fs : Bytes → Option Yaml) (path : Bytes) (w0 w1 : W × List Call) (addr : Bytes) (ttl : Int)
    (stores : List (Saver (W × List Call) (ConnErr E))) (h : receiverMain (recorder lib) order fs path w0 = .run addr ttl stores w1)
    (s : Settings) (hs : configNew (fs path) = some s) (hp : Prints s.logLevel)
    (env : Env) (ce : Nat → ConnEnv) (evs : List Event) (sys : System (W × List Call) (ConnErr E))
    (hsys : System.exec env ce stores { world := w1 } evs = some sys) :
    ∃ chunks : List (List Call), sys.world.2 = w1.2 ++ chunks.flatten ∧
      List.Forall₂ (fun (calls : List Call) (a : NavRecord × Option (ConnErr E)) => a.2 = none →
        ∃ c ∈ calls, c.payload = some a.1.toBytes ∨ c.payload = some a.1.indented) chunks (attempts (sys.log.map (·.2))) := by
  obtain ⟨s', k, log, hs', hf, _, hall⟩ := C74_config_to_storages lib order fs path w0 w1 addr ttl stores h
  rw [hs] at hs'
  cases hs'
  obtain ⟨chunks, h1, h2⟩ := hall env ce evs sys hsys
  refine ⟨chunks, h1, h2.imp fun calls a hc hn => ?_⟩
  have hd := hc.2 hn
  have hmem : ∃ x ∈ duesWithLog ((order s.store).take k) (log && decide (Prints s.logLevel)) a.1, x.2 = some a.1.toBytes ∨ x.2 = some a.1.indented := by
    cases log with
    | true => exact ⟨([go!"log"], some a.1.indented), by simp [duesWithLog, hp], .inr rfl⟩
    | false =>
      obtain ⟨rfl, hne⟩ := hf rfl
      obtain ⟨x, l, hx⟩ := List.exists_cons_of_ne_nil hne
      exact ⟨(placeOf x.1 (x.2.getD []), some a.1.toBytes), by simp [duesWithLog, dues, hx], .inl rfl⟩
  obtain ⟨x, hx, hp⟩ := hmem
  rw [← hd] at hx
  obtain ⟨c, hc, rfl⟩ := List.mem_map.mp hx
  exact ⟨c, hc, hp⟩

set_option maxRecDepth 40000 in
/-- Loading stops at a storage that is not supported; the record is then delivered to the one loaded before and to the log. -/
example (env : Env) : ∃ stores w1 sys,
    receiverMain (recorder (fun (_ : Call) () => ((), (none : Option Unit)))) id
      (fun _ => some (.map [(go!"storage", .map [(go!"mysql", .map [(go!"table", .str (go!"points"))]), (go!"mongo", .null)])]))
      (go!"config.yaml") ((), []) = .run (go!":") 0 stores w1 ∧
    System.exec env (fun _ => { clock := fun _ => 9, spare := fun _ => [] }) stores { world := w1 } twoConns = some sys ∧
    sys.world.2.map Call.place = [[], [], [go!"INSERT INTO points (point) VALUES (?)"], [go!"log"]] := by
  refine ⟨_, _, _, rfl, by with_unfolding_all rfl, ?_⟩
  with_unfolding_all exact rfl

end Egts
