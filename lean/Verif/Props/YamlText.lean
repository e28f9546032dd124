import Verif.Proofs.YamlText
import Verif.Props.Main

/-! # From the text of the configuration file to the running receiver (C98) -/

namespace Egts

variable {W E : Type}

/-- The model of the reader is right about the texts described in `Spec/YamlText.lean` … -/
theorem C98_reader : ReadsYaml yamlRead := by
  intro text lines ms hl hp hs h0
  rw [(yamlRead_iff text (.map ms)).mpr ⟨lines, ms, hl, hp, hs, by rw [if_neg h0]⟩]

/-- … and reads no others. -/
theorem C98_reads_only (text : Bytes) (ms : List (Bytes × Yaml)) (h : yamlRead text = some (.map ms)) :
    ∃ lines, HasLines text lines ∧ (∀ l ∈ lines, Printable l) ∧ Says 0 lines ms := by
  obtain ⟨lines, ms', hl, hp, hs, hv⟩ := (yamlRead_iff text _).mp h
  split at hv
  · cases hv
  · cases hv
    exact ⟨lines, hl, hp, hs⟩

/-- A text says one thing only. -/
theorem C98_unambiguous (text : Bytes) (lines lines' : List Bytes) (ms ms' : List (Bytes × Yaml)) (h : HasLines text lines)
    (h' : HasLines text lines') (hp : ∀ l ∈ lines, Printable l) (hs : Says 0 lines ms) (hs' : Says 0 lines' ms') : ms = ms' := by
  have hll : lines = lines' := by rw [← splitLines_of h, splitLines_of h']
  subst hll
  have h1 := (yamlRead_iff text _).mpr ⟨lines, ms, h, hp, hs, rfl⟩
  have h2 := (yamlRead_iff text _).mpr ⟨lines, ms', h, hp, hs', rfl⟩
  rw [h1] at h2
  split at h2 <;> split at h2 <;> simp_all

/-- Lines with a comment and blank lines change nothing. -/
theorem C98_comments {n : Nat} {a b : List Bytes} {ms ms' : List (Bytes × Yaml)} (ha : Says n a ms) (hb : Says n b ms') (k : Nat) (c : Bytes) :
    Says n (a ++ b) (ms ++ ms') ∧ Says n (a ++ (spaces k ++ go!"#" ++ c) :: b) (ms ++ ms') ∧ Says n (a ++ spaces k :: b) (ms ++ ms') :=
  ⟨ha.append hb, ha.append (.comment n k c b ms' hb), ha.append (.blank n k b ms' hb)⟩

/-- The receiver runs with what the text of the file says: any reader of YAML that is right about such texts gives the same as
if the settings themselves were given. -/
theorem C98_receiver (read : Bytes → Option Yaml) (hr : ReadsYaml read) (lib : Lib W E) (order : List (Bytes × Params) → List (Bytes × Params))
    (content : Bytes → Option Bytes) (path text : Bytes) (hc : content path = some text) (w : W) (lines : List Bytes) (ms : List (Bytes × Yaml))
    (hl : HasLines text lines) (hp : ∀ l ∈ lines, Printable l) (hs : Says 0 lines ms) (h0 : ms ≠ []) :
    receiverMain lib order (fun p => (content p).bind read) path w = receiverMain lib order (fun _ => some (.map ms)) path w := by
  unfold receiverMain
  simp only [hc, Option.bind_some, hr text lines ms hl hp hs h0]

/-- In particular it listens on the host and port that the file shows between the quotes. -/
theorem C98_listens (read : Bytes → Option Yaml) (hr : ReadsYaml read) (lib : Lib W E) (order : List (Bytes × Params) → List (Bytes × Params))
    (content : Bytes → Option Bytes) (path text : Bytes) (hpath : path ≠ []) (hc : content path = some text) (w : W) (lines : List Bytes)
    (ms : List (Bytes × Yaml)) (hl : HasLines text lines) (hp : ∀ l ∈ lines, Printable l) (hs : Says 0 lines ms)
    (host port : Bytes) (hh : lastOf ms (go!"host") = some (.str host)) (ho : lastOf ms (go!"port") = some (.str port))
    (hw : ∀ x ∈ ms, WellTyped x.1 x.2) :
    ∃ ttl stores w', receiverMain lib order (fun p => (content p).bind read) path w = .run (host ++ go!":" ++ port) ttl stores w' := by
  have h0 : ms ≠ [] := by rintro rfl; simp [lastOf] at hh
  rw [C98_receiver read hr lib order content path text hc w lines ms hl hp hs h0]
  obtain ⟨s, hcfg⟩ := Option.isSome_iff_exists.mp ((C72_accepts_iff ms).mpr hw)
  obtain ⟨h1, h2, _⟩ := C72_settings ms s hcfg
  have hhost : s.host = host := by
    have := h1.2 _ hh
    simpa [Yaml.IsText, eq_comm] using this
  have hport : s.port = port := by
    have := h2.2 _ ho
    simpa [Yaml.IsText, eq_comm] using this
  unfold receiverMain
  rw [if_neg hpath, hcfg, ← hhost, ← hport]
  exact ⟨_, _, _, rfl⟩

/-! ## The shipped files -/

/-- `configs/receiver.yaml`, line by line. -/
def shippedLines : List Bytes :=
  [go!"host: \"127.0.0.1\"",
   go!"port: \"6000\"",
   go!"con_live_sec: 10",
   go!"log_level: \"DEBUG\"",
   go!"",
   go!"storage:",
   go!"  postgresql:",
   go!"    host: \"localhost\"",
   go!"    port: \"5432\"",
   go!"    user: \"postgres\"",
   go!"    password: \"postgres\"",
   go!"    database: \"receiver\"",
   go!"    table: \"points\"",
   go!"  redis:",
   go!"    server: \"redis:6379\"",
   go!"    queue: \"egts\"",
   go!"    password: \"\"",
   go!"    db: \"0\"",
   go!"  mysql:",
   go!"    uri: \"\"",
   go!"    database: \"receiver\"",
   go!"    table: \"points\"",
   go!"#  rabbitmq:",
   go!"#    host: \"localhost\"",
   go!"#    port: \"5672\"",
   go!"#    user: \"guest\"",
   go!"#    password: \"guest\"",
   go!"#    exchange: \"receiver\"",
   go!"#  nats:",
   go!"#    plugin: \"nats.so\"",
   go!"#    servers: \"nats://localhost:1222, nats://localhost:1223, nats://localhost:1224\"",
   go!"#    topic: \"receiver\"",
   go!"#  tarantool_queue:",
   go!"#    host: \"localhost\"",
   go!"#    port: \"5672\"",
   go!"#    user: \"user\"",
   go!"#    password: \"pass\"",
   go!"#    max_recons: 5",
   go!"#    timeout: 1",
   go!"#    reconnect: 1",
   go!"#    queue: \"points\"",
   go!""]

/-- The storages in it. -/
def shippedStorages : List (Bytes × Params) :=
  [(go!"postgresql", some [(go!"host", go!"localhost"), (go!"port", go!"5432"), (go!"user", go!"postgres"), (go!"password", go!"postgres"),
     (go!"database", go!"receiver"), (go!"table", go!"points")]),
   (go!"redis", some [(go!"server", go!"redis:6379"), (go!"queue", go!"egts"), (go!"password", go!""), (go!"db", go!"0")]),
   (go!"mysql", some [(go!"uri", go!""), (go!"database", go!"receiver"), (go!"table", go!"points")])]

/-- The text of the file. -/
example : HasLines ([(10 : UInt8)].intercalate shippedLines) shippedLines := ⟨by simp [shippedLines], by unfold shippedLines; decide, rfl⟩

/-- What the file says. -/
def shippedDoc : List (Bytes × Yaml) :=
  [(go!"host", .str (go!"127.0.0.1")), (go!"port", .str (go!"6000")), (go!"con_live_sec", .int 10 (go!"10")), (go!"log_level", .str (go!"DEBUG")),
   (go!"storage", .map
     [(go!"postgresql", .map [(go!"host", .str (go!"localhost")), (go!"port", .str (go!"5432")), (go!"user", .str (go!"postgres")),
        (go!"password", .str (go!"postgres")), (go!"database", .str (go!"receiver")), (go!"table", .str (go!"points"))]),
      (go!"redis", .map [(go!"server", .str (go!"redis:6379")), (go!"queue", .str (go!"egts")), (go!"password", .str (go!"")), (go!"db", .str (go!"0"))]),
      (go!"mysql", .map [(go!"uri", .str (go!"")), (go!"database", .str (go!"receiver")), (go!"table", .str (go!"points"))])])]

theorem C98_shipped_says : Says 0 shippedLines shippedDoc := by
  have h1 : ∃ ts, yamlLines shippedLines = some ts ∧ yamlBuild ts = some (atLevel 0 shippedDoc) := ⟨_, rfl, rfl⟩
  obtain ⟨ts, h1, h2⟩ := h1
  have := (build_pieces _ _ _ h1 h2).says 0 (by
    intro e he
    simp only [atLevel, List.mem_map] at he
    obtain ⟨x, _, rfl⟩ := he
    rfl)
  rwa [atLevel_snd] at this

theorem shipped_printable : ∀ l ∈ shippedLines, Printable l := by
  unfold Printable shippedLines
  decide

/-- The shipped file, as any reader of YAML reads it. The key `con_live_sec` is none of the receiver's: the TTL is zero. -/
theorem C98_shipped_settings (read : Bytes → Option Yaml) (hr : ReadsYaml read) (text : Bytes) (h : HasLines text shippedLines) :
    configNew (read text) =
      some { host := go!"127.0.0.1", port := go!"6000", connTTL := 0, logLevel := go!"DEBUG", store := shippedStorages } := by
  rw [hr text shippedLines shippedDoc h shipped_printable C98_shipped_says (by simp [shippedDoc])]
  rfl

/-- The calls that start a storage of the shipped file. -/
def shippedCalls (name : Bytes) : List Call :=
  if name = go!"postgresql" then
    [.sqlOpen (go!"postgres") (go!"dbname=receiver host=localhost port=5432 user=postgres password=postgres sslmode="),
     .sqlPing (go!"postgres") (go!"dbname=receiver host=localhost port=5432 user=postgres password=postgres sslmode=")]
  else if name = go!"mysql" then [.sqlOpen (go!"mysql") (go!""), .sqlPing (go!"mysql") (go!"")]
  else []

/-- With the shipped file, and all servers answering, the receiver listens on port 6000 of the local machine only and has opened the three
storages, in some order. -/
theorem C98_shipped_runs (read : Bytes → Option Yaml) (hr : ReadsYaml read) (text : Bytes) (h : HasLines text shippedLines)
    (lib : Lib W E) (hok : ∀ c w, (lib c w).2 = none) (order : List (Bytes × Params) → List (Bytes × Params)) (hord : ∀ l, (order l).Perm l)
    (content : Bytes → Option Bytes) (path : Bytes) (hpath : path ≠ []) (hc : content path = some text) (w : W) :
    ∃ w', receiverMain (recorder lib) order (fun p => (content p).bind read) path (w, []) =
      .run (go!"127.0.0.1:6000") 0 ((order shippedStorages).map fun x => (connectors (recorder lib)).saver x.1 x.2)
        (w', (order shippedStorages).flatMap fun x => shippedCalls x.1) := by
  have hinit : ∀ x ∈ shippedStorages, x.1 ∈ supportedNames ∧ ∀ w : W × List Call, ∃ w', (connectors (recorder lib)).init x.1 x.2 w =
      ((w', w.2 ++ shippedCalls x.1), none) := by
    intro x hx
    simp only [shippedStorages, List.mem_cons, List.not_mem_nil, or_false] at hx
    have hrec : ∀ c (w : W × List Call), recorder lib c w = (((lib c w.1).1, w.2 ++ [c]), none) := fun c w => by simp [recorder, hok]
    rcases hx with rfl | rfl | rfl
    · have : ∀ c w, ∃ w', pgInit (recorder lib) (some c) w =
          ((w', w.2 ++ [.sqlOpen (go!"postgres") (pgDsn c), .sqlPing (go!"postgres") (pgDsn c)]), none) := by
        intro c w
        simp only [pgInit, hrec, wrap, List.append_assoc]
        exact ⟨_, rfl⟩
      exact ⟨by decide, fun w => this _ w⟩
    · exact ⟨by decide, fun w => ⟨w.1, by rw [show shippedCalls _ = [] from rfl, List.append_nil]; rfl⟩⟩
    · have : ∀ c w, ∃ w', myInit (recorder lib) (some c) w =
          ((w', w.2 ++ [.sqlOpen (go!"mysql") (setting c (go!"uri")), .sqlPing (go!"mysql") (setting c (go!"uri"))]), none) := by
        intro c w
        simp only [myInit, hrec, wrap, List.append_assoc]
        exact ⟨_, rfl⟩
      exact ⟨by decide, fun w => this _ w⟩
  have hload : ∀ (cfg : List (Bytes × Params)) (st : List (Saver (W × List Call) (ConnErr E))) (w : W × List Call),
      (∀ x ∈ cfg, x ∈ shippedStorages) → ∃ w', loadLoop (connectors (recorder lib)) st w cfg =
        (st ++ cfg.map (fun x => (connectors (recorder lib)).saver x.1 x.2), (w', w.2 ++ cfg.flatMap fun x => shippedCalls x.1), none) := by
    intro cfg
    induction cfg with
    | nil => intro st w _; exact ⟨w.1, by simp [loadLoop]⟩
    | cons x cfg ih =>
      intro st w hall
      obtain ⟨hn, hi⟩ := hinit x (hall x (by simp))
      obtain ⟨w1, hw1⟩ := hi w
      obtain ⟨w2, hw2⟩ := ih (st ++ [(connectors (recorder lib)).saver x.1 x.2]) (w1, w.2 ++ shippedCalls x.1) (fun y hy => hall y (by simp [hy]))
      refine ⟨w2, ?_⟩
      obtain ⟨name, params⟩ := x
      rw [loadLoop, if_pos hn, hw1]
      simp only
      rw [hw2]
      simp
  have hs := hord shippedStorages
  obtain ⟨w', hw'⟩ := hload (order shippedStorages) [] (w, []) (fun x hx => hs.mem_iff.mp hx)
  refine ⟨w', ?_⟩
  unfold receiverMain
  rw [if_neg hpath]
  simp only [hc, Option.bind_some]
  rw [C98_shipped_settings read hr text h]
  simp only [mainStorages, loadStorages]
  rw [if_neg (by rw [hs.length_eq]; simp [shippedStorages]), hw']
  simp only [List.nil_append]
  rfl

/-- PostgreSQL refuses connections; everything else works. -/
def noPostgres : Lib Unit Unit := fun c w =>
  match c with
  | .sqlPing driver _ => if driver = go!"postgres" then (w, some ()) else (w, none)
  | _ => (w, none)

/-- If one of the servers does not answer, it is left to chance (the order in which Go goes through the map) where the records go: here
to the log only, or to MySQL, Redis and the log. -/
theorem C98_shipped_chance (read : Bytes → Option Yaml) (hr : ReadsYaml read) (text : Bytes) (h : HasLines text shippedLines) (r : NavRecord) :
    (∃ addr ttl stores w, receiverMain (recorder noPostgres) id (fun _ => read text) (go!"config.yaml") ((), []) = .run addr ttl stores w ∧
      (Repository.save stores r ((), [])).1.2 = [.logPacket r.indented]) ∧
    ∃ addr ttl stores w, receiverMain (recorder noPostgres) List.reverse (fun _ => read text) (go!"config.yaml") ((), []) = .run addr ttl stores w ∧
      (Repository.save stores r ((), [])).1.2 =
        [.sqlExec (go!"mysql") (go!"") (go!"INSERT INTO points (point) VALUES (?)") r.toBytes,
         .redisPublish (go!"redis:6379") (go!"") 0 (go!"egts") r.toBytes, .logPacket r.indented] := by
  unfold receiverMain
  rw [if_neg (by simp), C98_shipped_settings read hr text h]
  exact ⟨⟨_, _, _, _, rfl, rfl⟩, ⟨_, _, _, _, rfl, rfl⟩⟩

/-- `configs/config.test.yaml`, line by line. -/
def testLines : List Bytes :=
  [go!"host: \"127.0.0.1\"",
   go!"port: \"7000\"",
   go!"con_live_sec: 10",
   go!"log_level: \"DEBUG\"",
   go!"",
   go!"storage:",
   go!"  postgresql:",
   go!"    host: \"localhost\"",
   go!"    port: \"5432\"",
   go!"    user: \"egts\"",
   go!"    password: \"egts\"",
   go!"    database: \"receiver\"",
   go!"    table: \"points\"",
   go!"    sslmode: disable",
   go!"  redis:",
   go!"    server: \"localhost:6379\"",
   go!"    queue: \"egts\"",
   go!"    password: \"\"",
   go!"    db: \"0\"",
   go!"  mysql:",
   go!"    uri: \"egts:egts@/receiver\"",
   go!"    table: \"points\"",
   go!"#  rabbitmq:",
   go!"#    host: \"localhost\"",
   go!"#    port: \"5672\"",
   go!"#    user: \"guest\"",
   go!"#    password: \"guest\"",
   go!"#    exchange: \"receiver\"",
   go!"#  nats:",
   go!"#    plugin: \"nats.so\"",
   go!"#    servers: \"nats://localhost:1222, nats://localhost:1223, nats://localhost:1224\"",
   go!"#    topic: \"receiver\"",
   go!"#  tarantool_queue:",
   go!"#    host: \"localhost\"",
   go!"#    port: \"5672\"",
   go!"#    user: \"user\"",
   go!"#    password: \"pass\"",
   go!"#    max_recons: 5",
   go!"#    timeout: 1",
   go!"#    reconnect: 1",
   go!"#    queue: \"points\"",
   go!""]

/-- The file used by the tests has a plain word among its values. -/
example : ∃ ms, Says 0 testLines ms ∧ configNew (some (.map ms)) =
    some { host := go!"127.0.0.1", port := go!"7000", connTTL := 0, logLevel := go!"DEBUG", store :=
      [(go!"postgresql", some [(go!"host", go!"localhost"), (go!"port", go!"5432"), (go!"user", go!"egts"), (go!"password", go!"egts"),
         (go!"database", go!"receiver"), (go!"table", go!"points"), (go!"sslmode", go!"disable")]),
       (go!"redis", some [(go!"server", go!"localhost:6379"), (go!"queue", go!"egts"), (go!"password", go!""), (go!"db", go!"0")]),
       (go!"mysql", some [(go!"uri", go!"egts:egts@/receiver"), (go!"table", go!"points")])] } := by
  have h1 : ∃ ts es, yamlLines testLines = some ts ∧ yamlBuild ts = some es ∧ (∀ e ∈ es, e.1 = 0) ∧ configNew (some (.map (es.map (·.2)))) = _ :=
    ⟨_, _, rfl, rfl, by decide, rfl⟩
  obtain ⟨ts, es, h1, h2, h3, h4⟩ := h1
  exact ⟨_, (build_pieces _ _ _ h1 h2).says 0 h3, h4⟩

/-- Texts outside the subset: entries indented differently, a key without a space after the colon, an unfinished quotation. -/
example : yamlRead (go!"storage:\n    redis:\n  mysql:\n") = none ∧ yamlRead (go!"port:6000\n") = none ∧ yamlRead (go!"port: \"6000\n") = none :=
  ⟨rfl, rfl, rfl⟩

/-- Nested mappings of one entry, keys without a value, a comment that is indented, a blank line and no line feed at the end. -/
example : yamlRead (go!"storage:\n    redis:\n        queue: egts\n   # none\n\n    mysql:\nconn_ttl: 10") =
    some (.map [(go!"storage", .map [(go!"redis", .map [(go!"queue", .str (go!"egts"))]), (go!"mysql", .null)]), (go!"conn_ttl", .int 10 (go!"10"))]) := rfl

end Egts
