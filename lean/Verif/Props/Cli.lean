import Verif.Proofs.CliGen
import Verif.Props.Gen

/-! # Command lines of packet-gen (C84) and the receiver (C85) -/

namespace Egts

/-! ## C84 -/

/-- However the options are spelled and ordered, packet-gen does what they ask for, the last one counting if one is repeated; there is
exactly one thing they ask for. -/
theorem C84_options (pf : Bytes → Option F64) {argv : List Bytes} {opts : List (Bytes × Bytes)} (h : CommandLine argv opts)
    (hv : ∀ x ∈ opts, GenValid pf x.1 x.2) :
    ∃ a server, GenAsks pf opts a server ∧ (∀ b s, GenAsks pf opts b s → b = a ∧ s = server) ∧
      ∀ (env : Env) (pt : Bytes → Option GoTime) (net : Bytes → GenNet),
        packetGen env pt pf argv net = ((genMain env pt a (net server)).1, .main (genMain env pt a (net server)).2) := by
  obtain ⟨o, ho⟩ := (setAll_isSome (GenValid pf) (genFormal_valid pf) opts {}).mpr hv
  obtain ⟨rest, hp⟩ := flagParse_ok (genFormal pf) h {} o ho
  have ha := genAsks_of_setAll ho
  refine ⟨o.args, o.server, ha, fun b s hb => hb.unique ha, fun env pt net => ?_⟩
  unfold packetGen
  rw [hp]

/-- With anything else on the command line nothing is sent: the program explains its options, with exit code 0 if it was asked to and 2
if not. -/
theorem C84_refused (env : Env) (pt : Bytes → Option GoTime) (pf : Bytes → Option F64) (argv : List Bytes) (net : Bytes → GenNet)
    (h : ¬ ∃ opts, CommandLine argv opts ∧ ∀ x ∈ opts, GenValid pf x.1 x.2) :
    AsksHelp (GenValid pf) argv ∧ packetGen env pt pf argv net = (none, .flags .help) ∨
    ¬ AsksHelp (GenValid pf) argv ∧ packetGen env pt pf argv net = (none, .flags .usage) := by
  unfold packetGen
  cases hp : flagParse (genFormal pf) argv {} with
  | ok x =>
    obtain ⟨o, rest⟩ := x
    obtain ⟨opts, h1, h2⟩ := flagParse_inv (genFormal pf) argv.length argv {} o rest (Nat.le_refl _) hp
    exact absurd ⟨opts, h1, (setAll_isSome (GenValid pf) (genFormal_valid pf) opts {}).mp ⟨o, h2⟩⟩ h
  | error e =>
    cases e with
    | help => exact .inl ⟨flagParse_help (genFormal pf) (GenValid pf) (genFormal_valid pf) argv.length argv {} (Nat.le_refl _) hp, rfl⟩
    | usage =>
      refine .inr ⟨fun ha => ?_, rfl⟩
      have := flagParse_asked (genFormal pf) (GenValid pf) (genFormal_valid pf) rfl rfl ha {}
      rw [hp] at this
      cases this

/-- A number in plain decimal digits, with or without a sign, is that number. -/
theorem C84_decimal_numbers {s : Bytes} {n : Nat} (h : PlainDecimal s n) :
    (n < 2 ^ 63 → GoInt s n ∧ GoInt (go!"+" ++ s) n) ∧ (n ≤ 2 ^ 63 → GoInt (go!"-" ++ s) (-n)) :=
  ⟨fun hn => ⟨⟨by omega, by omega, n, s, h.goNat, .inl ⟨.inl rfl, rfl⟩⟩, ⟨by omega, by omega, n, s, h.goNat, .inl ⟨.inr rfl, rfl⟩⟩⟩,
    fun hn => ⟨by omega, by omega, n, s, h.goNat, .inr ⟨rfl, rfl⟩⟩⟩

/-- A text is at most one number. -/
theorem C84_numbers_unique {s : Bytes} {n m : Int} (h : GoInt s n) (h' : GoInt s m) : n = m := by
  have h1 := (parseInt0_iff s n).mpr h
  have h2 := (parseInt0_iff s m).mpr h'
  rw [h1] at h2
  exact Option.some.inj h2

/-- All four spellings, a repeated option, and an argument that is not looked at. -/
def sampleArgv : List Bytes :=
  [go!"-pid", go!"7", go!"--oid=42", go!"-time=2021-02-20T00:30:40Z", go!"--server", go!"10.0.0.1:5555", go!"-pid=0x_1f", go!"--",
    go!"-oid"]

def sampleOpts : List (Bytes × Bytes) :=
  [(go!"pid", go!"7"), (go!"oid", go!"42"), (go!"time", go!"2021-02-20T00:30:40Z"), (go!"server", go!"10.0.0.1:5555"),
    (go!"pid", go!"0x_1f")]

example : CommandLine sampleArgv sampleOpts :=
  .option (go!"pid") (go!"7") [go!"-pid", go!"7"] _ _ (by unfold OptionName; decide) .one <|
  .option (go!"oid") (go!"42") [go!"--oid=42"] _ _ (by unfold OptionName; decide) .twoEq <|
  .option (go!"time") (go!"2021-02-20T00:30:40Z") [go!"-time=2021-02-20T00:30:40Z"] _ _ (by unfold OptionName; decide) .oneEq <|
  .option (go!"server") (go!"10.0.0.1:5555") [go!"--server", go!"10.0.0.1:5555"] _ _ (by unfold OptionName; decide) .two <|
  .option (go!"pid") (go!"0x_1f") [go!"-pid=0x_1f"] _ _ (by unfold OptionName; decide) .oneEq <|
  .dashes _

/-- … and this is what it asks for. -/
example (pf : Bytes → Option F64) : (∀ x ∈ sampleOpts, GenValid pf x.1 x.2) ∧
    GenAsks pf sampleOpts { pid := 31, oid := 42, ts := go!"2021-02-20T00:30:40Z" } (go!"10.0.0.1:5555") := by
  have h7 : GoInt (go!"7") 7 := (parseInt0_iff _ _).mp (by decide)
  have h42 : GoInt (go!"42") 42 := (parseInt0_iff _ _).mp (by decide)
  have h31 : GoInt (go!"0x_1f") 31 := (parseInt0_iff _ _).mp (by decide)
  refine ⟨?_, ?_⟩
  · intro x hx
    simp only [sampleOpts, List.mem_cons, List.not_mem_nil, or_false] at hx
    rcases hx with rfl | rfl | rfl | rfl | rfl
    · exact .inl ⟨by decide, _, h7⟩
    · exact .inl ⟨by decide, _, h42⟩
    · exact .inr (.inr (by decide))
    · exact .inr (.inr (by decide))
    · exact .inl ⟨by decide, _, h31⟩
  · exact ⟨.inr ⟨_, by decide, h31⟩, .inr ⟨_, by decide, h42⟩, .inl ⟨by decide, rfl⟩, .inl ⟨by decide, rfl⟩, .inl ⟨by decide, rfl⟩, .inl ⟨by decide, rfl⟩,
      by decide, by decide⟩

/-- Command lines that are refused: an unknown option, a missing value, a value that is not a number; and one that asks for help. -/
example (env : Env) (pt : Bytes → Option GoTime) (pf : Bytes → Option F64) (net : Bytes → GenNet) :
    packetGen env pt pf [go!"-pid", go!"1", go!"-x", go!"2"] net = (none, .flags .usage) ∧
    packetGen env pt pf [go!"-pid"] net = (none, .flags .usage) ∧
    packetGen env pt pf [go!"-pid", go!"1.5"] net = (none, .flags .usage) ∧
    packetGen env pt pf [go!"-pid", go!"9223372036854775808"] net = (none, .flags .usage) ∧
    packetGen env pt pf [go!"---pid", go!"1"] net = (none, .flags .usage) ∧
    packetGen env pt pf [go!"-pid", go!"1", go!"--help"] net = (none, .flags .help) :=
  ⟨rfl, rfl, rfl, rfl, rfl, rfl⟩

/-- Full statement of C84 (not provable): a text of decimal digits is not always the number it shows, because a zero in front makes it octal:
`-pid 010` is 8, and `-pid 09` is refused. -/
theorem C84_false_octal (env : Env) (pt : Bytes → Option GoTime) (pf : Bytes → Option F64) (net : Bytes → GenNet) :
    Decimal (go!"010") 10 ∧ GoInt (go!"010") 8 ∧ ¬ GoInt (go!"010") 10 ∧
    packetGen env pt pf [go!"-pid", go!"010", go!"-oid", go!"1", go!"-time", go!"now"] net =
      packetGen env pt pf [go!"-pid", go!"8", go!"-oid", go!"1", go!"-time", go!"now"] net ∧
    Decimal (go!"09") 9 ∧ packetGen env pt pf [go!"-pid", go!"09", go!"-oid", go!"1", go!"-time", go!"now"] net = (none, .flags .usage) :=
  ⟨⟨by decide, by decide, by decide⟩, (parseInt0_iff _ _).mp (by decide), fun h => absurd ((parseInt0_iff _ _).mpr h) (by decide), rfl,
    ⟨by decide, by decide, by decide⟩, rfl⟩

/-- From the command line to the storage: numbers in plain decimal digits arrive as they were typed. What is missing: `C84_false_octal`,
the time (`C59_false_time`), negative coordinates. -/
theorem C84_end_to_end_partial (env : Env) (pt : Bytes → Option GoTime) (pf : Bytes → Option F64) {argv : List Bytes} {opts : List (Bytes × Bytes)}
    (h : CommandLine argv opts) (hv : ∀ x ∈ opts, GenValid pf x.1 x.2)
    (pid oid liq : Nat) (pidText oidText liqText ts : Bytes) (lat lon : F64)
    (hpid : lastValue opts (go!"pid") = some pidText ∧ PlainDecimal pidText pid ∧ 1 ≤ pid ∧ pid < 65536)
    (hoid : lastValue opts (go!"oid") = some oidText ∧ PlainDecimal oidText oid ∧ 1 ≤ oid ∧ oid < 4294967296)
    (hliq : lastValue opts (go!"liquid") = some liqText ∧ PlainDecimal liqText liq ∧ liq < 4294967296)
    (hlat : FloatGiven pf opts (go!"lat") lat ∧ 0 ≤ lat ∧ lat ≤ 90) (hlon : FloatGiven pf opts (go!"lon") lon ∧ 0 ≤ lon ∧ lon ≤ 180)
    (hts : lastValue opts (go!"time") = some ts ∧ ts ≠ [] ∧ (pt ts).isSome) :
    ∃ f, (∀ net : Bytes → GenNet, (net ((lastValue opts (go!"server")).getD (go!"localhost:5555"))).up → (packetGen env pt pf argv net).1 = some f) ∧
      ∀ ce : ConnEnv, ∃ n ack, handleConn env ce f .blocked = [.save n, .write ack] ∧
        n.client.toNat = oid ∧ n.packetID.toNat = pid ∧
        |n.latitude - lat| ≤ 22 / 1000000000 ∧ |n.longitude - lon| ≤ 44 / 1000000000 ∧
        ∃ s, n.liquidSensors = [s] ∧ s.sensorNumber = 1 ∧ s.valueMm.toNat = liq := by
  obtain ⟨a, server, ha, _, hrun⟩ := C84_options pf h hv
  have num : ∀ {name s : Bytes} {x : Int} {n : Nat}, IntGiven opts name x → lastValue opts name = some s → PlainDecimal s n → n < 2 ^ 63 → x = n := by
    intro name s x n hx hl hd hn
    exact hx.unique (.inr ⟨s, hl, ((C84_decimal_numbers hd).1 hn).1⟩)
  have e1 := num ha.pid hpid.1 hpid.2.1 (by have := hpid.2.2; omega)
  have e2 := num ha.oid hoid.1 hoid.2.1 (by have := hoid.2.2; omega)
  have e3 := num ha.liquid hliq.1 hliq.2.1 (by have := hliq.2.2; omega)
  have e4 := ha.lat.unique hlat.1
  have e5 := ha.lon.unique hlon.1
  have e6 : a.ts = ts := by rw [ha.time, hts.1]; rfl
  obtain ⟨f, h1, h2⟩ := C59_end_to_end_partial env pt a (by have := hpid.2.2; omega) (by have := hoid.2.2; omega) (by have := hliq.2.2; omega)
    (by rw [e4]; exact hlat.2) (by rw [e5]; exact hlon.2) (by rw [e6]; exact hts.2.1) (by rw [e6]; exact hts.2.2)
  refine ⟨f, fun net hn => ?_, fun ce => ?_⟩
  · rw [hrun env pt net]
    exact h1 _ (by rw [ha.server]; exact hn)
  · obtain ⟨n, ack, q1, q2, q3, q4, q5, ⟨s, q6, q7, q8, _⟩, _⟩ := h2 ce
    exact ⟨n, ack, q1, by omega, by omega, by rw [← e4]; exact q4, by rw [← e5]; exact q5, s, q6, q7, by omega⟩

example : PlainDecimal (go!"4294967295") 4294967295 ∧ PlainDecimal (go!"0") 0 :=
  ⟨⟨⟨by decide, by decide, by decide⟩, by decide⟩, ⟨by decide, by decide, by decide⟩, by decide⟩

/-- A command line for it. -/
example : ∃ argv opts, CommandLine argv opts ∧ (∀ x ∈ opts, GenValid (fun _ => some 55) x.1 x.2) ∧ lastValue opts (go!"pid") = some (go!"7") ∧
    lastValue opts (go!"oid") = some (go!"42") ∧ lastValue opts (go!"liquid") = some (go!"100") ∧
    FloatGiven (fun _ => some 55) opts (go!"lat") 55 ∧ FloatGiven (fun _ => some 55) opts (go!"lon") 0 ∧ lastValue opts (go!"time") = some (go!"t") := by
  refine ⟨[go!"-pid=7", go!"-oid=42", go!"-liquid=100", go!"-lat", go!"55", go!"-time=t"],
    [(go!"pid", go!"7"), (go!"oid", go!"42"), (go!"liquid", go!"100"), (go!"lat", go!"55"), (go!"time", go!"t")],
    .option (go!"pid") (go!"7") [go!"-pid=7"] _ _ (by unfold OptionName; decide) .oneEq <|
    .option (go!"oid") (go!"42") [go!"-oid=42"] _ _ (by unfold OptionName; decide) .oneEq <|
    .option (go!"liquid") (go!"100") [go!"-liquid=100"] _ _ (by unfold OptionName; decide) .oneEq <|
    .option (go!"lat") (go!"55") [go!"-lat", go!"55"] _ _ (by unfold OptionName; decide) .one <|
    .option (go!"time") (go!"t") [go!"-time=t"] _ _ (by unfold OptionName; decide) .oneEq .nil, ?_, by decide, by decide, by decide,
    .inr ⟨go!"55", by decide, rfl⟩, .inl ⟨by decide, rfl⟩, by decide⟩
  intro x hx
  simp only [List.mem_cons, List.not_mem_nil, or_false] at hx
  rcases hx with rfl | rfl | rfl | rfl | rfl
  · exact .inl ⟨by decide, 7, (parseInt0_iff _ _).mp (by decide)⟩
  · exact .inl ⟨by decide, 42, (parseInt0_iff _ _).mp (by decide)⟩
  · exact .inl ⟨by decide, 100, (parseInt0_iff _ _).mp (by decide)⟩
  · exact .inr (.inl ⟨by decide, rfl⟩)
  · exact .inr (.inr (by decide))

/-! ## C85 -/

/-- The receiver reads the file that the last `-c` names, however it is spelled. -/
theorem C85_file {W E : Type} (lib : Lib W E) (order : List (Bytes × Params) → List (Bytes × Params)) (fs : Bytes → Option Yaml) (w : W)
    {argv : List Bytes} {opts : List (Bytes × Bytes)} (h : CommandLine argv opts) (hv : ∀ x ∈ opts, x.1 = go!"c") :
    receiverCli lib order fs argv w = .main (receiverMain lib order fs ((lastValue opts (go!"c")).getD []) w) := by
  obtain ⟨p, hp⟩ := (setAll_isSome (fun n _ => n = go!"c") receiverFormal_valid opts []).mpr hv
  obtain ⟨rest, he⟩ := flagParse_ok receiverFormal h [] p hp
  unfold receiverCli
  rw [he, receiver_setAll hp]

/-- Without `-c`, with an empty name, or if the file cannot be read, it ends at once. -/
theorem C85_no_file {W E : Type} (lib : Lib W E) (order : List (Bytes × Params) → List (Bytes × Params)) (fs : Bytes → Option Yaml) (w : W)
    {argv : List Bytes} {opts : List (Bytes × Bytes)} (h : CommandLine argv opts) (hv : ∀ x ∈ opts, x.1 = go!"c")
    (hn : ∀ path, lastValue opts (go!"c") = some path → path = [] ∨ fs path = none) : receiverCli lib order fs argv w = .main .fatal := by
  rw [C85_file lib order fs w h hv]
  unfold receiverMain
  split
  · rfl
  · rename_i hne
    cases hl : lastValue opts (go!"c") with
    | none => rw [hl] at hne; exact absurd rfl hne
    | some path =>
      rw [hl] at hne
      rcases hn path hl with rfl | hf
      · exact absurd rfl hne
      · simp only [Option.getD_some, hf]
        rfl

/-- With anything else it does not start either. -/
theorem C85_refused {W E : Type} (lib : Lib W E) (order : List (Bytes × Params) → List (Bytes × Params)) (fs : Bytes → Option Yaml) (w : W)
    (argv : List Bytes) (h : ¬ ∃ opts, CommandLine argv opts ∧ ∀ x ∈ opts, x.1 = go!"c") :
    AsksHelp (fun n _ => n = go!"c") argv ∧ receiverCli lib order fs argv w = .flags .help ∨
    ¬ AsksHelp (fun n _ => n = go!"c") argv ∧ receiverCli lib order fs argv w = .flags .usage := by
  unfold receiverCli
  cases hp : flagParse receiverFormal argv [] with
  | ok x =>
    obtain ⟨o, rest⟩ := x
    obtain ⟨opts, h1, h2⟩ := flagParse_inv receiverFormal argv.length argv [] o rest (Nat.le_refl _) hp
    exact absurd ⟨opts, h1, (setAll_isSome (fun n _ => n = go!"c") receiverFormal_valid opts []).mp ⟨o, h2⟩⟩ h
  | error e =>
    cases e with
    | help => exact .inl ⟨flagParse_help receiverFormal (fun n _ => n = go!"c") receiverFormal_valid argv.length argv [] (Nat.le_refl _) hp, rfl⟩
    | usage =>
      refine .inr ⟨fun ha => ?_, rfl⟩
      have := flagParse_asked receiverFormal (fun n _ => n = go!"c") receiverFormal_valid rfl rfl ha []
      rw [hp] at this
      cases this

example {W E : Type} (lib : Lib W E) (order : List (Bytes × Params) → List (Bytes × Params)) (fs : Bytes → Option Yaml) (w : W) :
    receiverCli lib order fs [go!"-c", go!"a.yaml", go!"--c=b.yaml"] w = .main (receiverMain lib order fs (go!"b.yaml") w) ∧
    receiverCli lib order fs [go!"b.yaml"] w = .main .fatal ∧ receiverCli lib order fs [go!"-c"] w = .flags .usage ∧
    receiverCli lib order fs [go!"-c", go!"a.yaml", go!"-h"] w = .flags .help := ⟨rfl, rfl, rfl, rfl⟩

end Egts
