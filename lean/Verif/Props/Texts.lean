import Verif.Proofs.Parse
import Verif.Props.Cli
import Verif.Props.Json

/-! # Numbers and times on the command line of packet-gen (C84) -/

namespace Egts

/-- A decimal number on the command line becomes the `float64` nearest to it, and of two equally near ones the even one; it is refused if and only if
it is too large for one. (The bound on the exponent of the text: the library stops counting it there.) -/
theorem C84_decimal_texts (other : Bytes → Option F64) {s : Bytes} {q : Rat} {e : Int} (h : DecimalNumber s q e) (he : |e| < 100000) :
    (parseFloat other s = none ↔ (2 : Rat) ^ (1024 : Int) - 2 ^ (970 : Int) ≤ |q|) ∧
    ∀ x, parseFloat other s = some x → IsFloat64 x ∧ ∀ y, IsFloat64 y → |x - q| ≤ |y - q| ∧ (y ≠ x → |y - q| = |x - q| → EvenNeighbour x y) := by
  have e1 : parseFloat other s = nearest64 q := by
    rw [parseFloat, if_pos (floatChar_number h), readFloat_eq h he]; rfl
  rw [e1]
  exact ⟨nearest64_none q, fun x hx => ⟨(nearest64_some hx).1, fun y hy => ⟨(nearest64_some hx).2 y hy, nearest64_tie hx hy⟩⟩⟩

/-- 2^53 + 1 and 2^53 + 3 are no doubles and lie in the middle between two. -/
example : parseFloat (fun _ => none) (go!"9007199254740993") = some 9007199254740992 ∧
    parseFloat (fun _ => none) (go!"9007199254740995") = some 9007199254740996 ∧
    EvenNeighbour 9007199254740992 9007199254740994 ∧ IsFloat64 9007199254740994 := by
  refine ⟨by decide +kernel, by decide +kernel, ⟨4503599627370496, 4503599627370497, 1, by decide, by decide, by norm_num, by norm_num⟩,
    ⟨4503599627370497, 1, by norm_num [abs], by norm_num, by norm_num, by norm_num⟩⟩

/-- A text of digits, signs, points and `e` that is not a decimal number is refused. -/
theorem C84_not_decimal (other : Bytes → Option F64) {s : Bytes} (hc : ∀ c ∈ s, c ∈ go!"0123456789+-.eE") (h : ¬ ∃ q e, DecimalNumber s q e) :
    parseFloat other s = none := by
  have hall : s.all floatChar = true := by
    rw [List.all_eq_true]
    intro c hm
    have : ∀ x ∈ go!"0123456789+-.eE", floatChar x = true := by decide
    exact this c (hc c hm)
  rw [parseFloat, if_pos hall]
  have : readFloat s = none := by
    by_contra hn
    exact h (readFloat_some (Option.isSome_iff_ne_none.mpr hn))
  rw [this]; rfl

/-- A text is one number only. -/
theorem C84_decimal_unique {s : Bytes} {q q' : Rat} {e e' : Int} (h : DecimalNumber s q e) (h' : DecimalNumber s q' e') (he : |e| < 100000)
    (he' : |e'| < 100000) : q = q' := by
  have := (readFloat_eq h he).symm.trans (readFloat_eq h' he')
  exact Option.some.inj this

/-- Every time of RFC 3339 is accepted, and understood. -/
theorem C84_times {s : Bytes} {t : GoTime} (h : Rfc3339 s t) : parseTime s = some t := parseTime_eq h

/-- Exactly which texts are accepted as times, and as which. -/
theorem C84_times_exact (s : Bytes) (t : GoTime) : parseTime s = some t ↔ TimeAccepted s t := parseTime_iff

/-- An accepted text that is not of RFC 3339, and a text that is almost accepted. -/
example : TimeAccepted (go!"2021-12-16T9:12:00,5+99:-9") 1639290060500000000 ∧ ¬ ∃ t, TimeAccepted (go!"2021-02-29T09:12:00Z") t := by
  refine ⟨(C84_times_exact _ _).mp (by decide +kernel), ?_⟩
  rintro ⟨t, h⟩
  have : parseTime (go!"2021-02-29T09:12:00Z") = none := by decide +kernel
  rw [(C84_times_exact _ _).mpr h] at this
  cases this

/-- Full statement of C84 (not provable), for times: the help says `Timestamp in RFC 3339 format`; but an hour of one digit, a comma, and offsets
that do not exist are accepted as well. -/
theorem C84_false_times : (¬ ∃ t, Rfc3339 (go!"2021-12-16T9:12:00,5+99:-9") t) ∧ (parseTime (go!"2021-12-16T9:12:00,5+99:-9")).isSome := by
  refine ⟨?_, by decide⟩
  rintro ⟨t, Y, MO, D, H, MI, S, F, Z, y, mo, d, h, mi, sec, ns, off, e, hY, hMO, hD, _, hH, _⟩
  have e' := congrArg (fun l => l[12]?) e
  obtain ⟨l1, _⟩ := hY
  obtain ⟨l2, _⟩ := hMO
  obtain ⟨l3, _⟩ := hD
  obtain ⟨l4, dH, _⟩ := hH
  match Y, l1, MO, l2, D, l3, H, l4 with
  | [_, _, _, _], _, [_, _], _, [_, _], _, [a, b], _ =>
    have hb : b = 58 := by simpa using e'.symm
    subst hb
    exact absurd (dH 58 (by simp)).2 (by decide)

example : Rfc3339 (go!"2021-12-16T09:12:00Z") 1639645920000000000 ∧ Rfc3339 (go!"2024-02-29T23:59:59.1234567899-03:30") 1709263799123456789 := by
  refine ⟨⟨go!"2021", go!"12", go!"16", go!"09", go!"12", go!"00", [], go!"Z", 2021, 12, 16, 9, 12, 0, 0, 0, rfl, ?_⟩,
    ⟨go!"2024", go!"02", go!"29", go!"23", go!"59", go!"59", go!".1234567899", go!"-03:30", 2024, 2, 29, 23, 59, 59, 123456789, -210, rfl, ?_⟩⟩
  · refine ⟨?_, ?_, ?_, ?_, ?_, ?_, ?_, ?_, ?_, ?_, .inl ⟨rfl, rfl⟩, .inl ⟨rfl, rfl⟩, ?_⟩ <;> (first | decide +kernel | (unfold Numeral Digits; decide +kernel) | (unfold DateExists; decide +kernel))
  · refine ⟨?_, ?_, ?_, ?_, ?_, ?_, ?_, ?_, ?_, ?_, .inr ⟨go!"1234567899", rfl, ?_⟩, .inr ⟨go!"03", 3, go!"30", 30, ?_, ?_, ?_, ?_, .inr ⟨rfl, rfl⟩⟩, ?_⟩ <;>
      (first | decide +kernel | (unfold Numeral Digits; decide +kernel) | (unfold DateExists; decide +kernel) | (unfold Digits; decide +kernel))

/-- What the options say about a coordinate: nothing, which is 0, or a decimal number. -/
def DecimalGiven (opts : List (Bytes × Bytes)) (name : Bytes) (q : Rat) : Prop :=
  lastValue opts name = none ∧ q = 0 ∨ ∃ v e, lastValue opts name = some v ∧ DecimalNumber v q e ∧ |e| < 100000

theorem DecimalGiven.float {opts : List (Bytes × Bytes)} {name : Bytes} {q : Rat} (h : DecimalGiven opts name q) (other : Bytes → Option F64)
    {n : Nat} (hn : n < 2 ^ 20) (h0 : 0 ≤ q) (h1 : q ≤ n) :
    ∃ x, FloatGiven (parseFloat other) opts name x ∧ 0 ≤ x ∧ x ≤ n ∧ |x - q| ≤ 1 / 1000000000 := by
  rcases h with ⟨h, rfl⟩ | ⟨v, e, h, hd, he⟩
  · exact ⟨0, .inl ⟨h, rfl⟩, le_refl _, h1, by norm_num⟩
  · obtain ⟨x, hx, r⟩ := nearest64_between hn h0 h1
    refine ⟨x, .inr ⟨v, h, ?_⟩, r⟩
    rw [parseFloat, if_pos (floatChar_number hd), readFloat_eq hd he]
    exact hx

/-- From the texts on the command line to the storage. What is missing: `C84_false_octal`, the time (`C59_false_time`), negative coordinates. -/
theorem C84_typed_partial (env : Env) (other : Bytes → Option F64) {argv : List Bytes} {opts : List (Bytes × Bytes)}
    (h : CommandLine argv opts) (hv : ∀ x ∈ opts, GenValid (parseFloat other) x.1 x.2)
    (pid oid liq : Nat) (pidText oidText liqText ts : Bytes) (lat lon : Rat) (t : GoTime)
    (hpid : lastValue opts (go!"pid") = some pidText ∧ PlainDecimal pidText pid ∧ 1 ≤ pid ∧ pid < 65536)
    (hoid : lastValue opts (go!"oid") = some oidText ∧ PlainDecimal oidText oid ∧ 1 ≤ oid ∧ oid < 4294967296)
    (hliq : lastValue opts (go!"liquid") = some liqText ∧ PlainDecimal liqText liq ∧ liq < 4294967296)
    (hlat : DecimalGiven opts (go!"lat") lat ∧ 0 ≤ lat ∧ lat ≤ 90) (hlon : DecimalGiven opts (go!"lon") lon ∧ 0 ≤ lon ∧ lon ≤ 180)
    (hts : lastValue opts (go!"time") = some ts ∧ Rfc3339 ts t) :
    ∃ f, (∀ net : Bytes → GenNet, (net ((lastValue opts (go!"server")).getD (go!"localhost:5555"))).up →
        (packetGen env parseTime (parseFloat other) argv net).1 = some f) ∧
      ∀ ce : ConnEnv, ∃ n ack, handleConn env ce f .blocked = [.save n, .write ack] ∧
        n.client.toNat = oid ∧ n.packetID.toNat = pid ∧
        |n.latitude - lat| ≤ 23 / 1000000000 ∧ |n.longitude - lon| ≤ 45 / 1000000000 ∧
        ∃ s, n.liquidSensors = [s] ∧ s.sensorNumber = 1 ∧ s.valueMm.toNat = liq := by
  obtain ⟨x, x1, x2, x3, x4⟩ := hlat.1.float other (n := 90) (by norm_num) hlat.2.1 (by exact_mod_cast hlat.2.2)
  obtain ⟨y, y1, y2, y3, y4⟩ := hlon.1.float other (n := 180) (by norm_num) hlon.2.1 (by exact_mod_cast hlon.2.2)
  have hp := parseTime_eq hts.2
  have hne : ts ≠ [] := by rintro rfl; simp [parseTime, longYear] at hp
  obtain ⟨f, f1, f2⟩ := C84_end_to_end_partial env parseTime (parseFloat other) h hv pid oid liq pidText oidText liqText ts x y hpid hoid hliq
    ⟨x1, x2, by exact_mod_cast x3⟩ ⟨y1, y2, by exact_mod_cast y3⟩ ⟨hts.1, hne, by rw [hp]; rfl⟩
  refine ⟨f, f1, fun ce => ?_⟩
  obtain ⟨n, ack, g1, g2, g3, g4, g5, g6⟩ := f2 ce
  refine ⟨n, ack, g1, g2, g3, ?_, ?_, g6⟩
  · have := abs_sub_le n.latitude x lat
    linarith
  · have := abs_sub_le n.longitude y lon
    linarith

/-- The command line of the manual. -/
example : ∃ argv opts, CommandLine argv opts ∧ (∀ x ∈ opts, GenValid (parseFloat fun _ => none) x.1 x.2) ∧
    argv = [go!"--pid", go!"1", go!"--oid", go!"12", go!"--time", go!"2021-12-16T09:12:00Z", go!"--liquid", go!"0", go!"--lat", go!"45", go!"--lon",
      go!"60.344", go!"--server", go!"localhost:5555"] ∧
    DecimalGiven opts (go!"lat") 45 ∧ DecimalGiven opts (go!"lon") (60344 / 1000) := by
  refine ⟨_, [(go!"pid", go!"1"), (go!"oid", go!"12"), (go!"time", go!"2021-12-16T09:12:00Z"), (go!"liquid", go!"0"), (go!"lat", go!"45"),
      (go!"lon", go!"60.344"), (go!"server", go!"localhost:5555")],
    .option (go!"pid") (go!"1") [go!"--pid", go!"1"] _ _ (by unfold OptionName; decide) .two <|
    .option (go!"oid") (go!"12") [go!"--oid", go!"12"] _ _ (by unfold OptionName; decide) .two <|
    .option (go!"time") (go!"2021-12-16T09:12:00Z") [go!"--time", go!"2021-12-16T09:12:00Z"] _ _ (by unfold OptionName; decide) .two <|
    .option (go!"liquid") (go!"0") [go!"--liquid", go!"0"] _ _ (by unfold OptionName; decide) .two <|
    .option (go!"lat") (go!"45") [go!"--lat", go!"45"] _ _ (by unfold OptionName; decide) .two <|
    .option (go!"lon") (go!"60.344") [go!"--lon", go!"60.344"] _ _ (by unfold OptionName; decide) .two <|
    .option (go!"server") (go!"localhost:5555") [go!"--server", go!"localhost:5555"] _ _ (by unfold OptionName; decide) .two .nil, ?_, rfl, ?_, ?_⟩
  · intro x hx
    simp only [List.mem_cons, List.not_mem_nil, or_false] at hx
    rcases hx with rfl | rfl | rfl | rfl | rfl | rfl | rfl
    · exact .inl ⟨by decide, 1, (parseInt0_iff _ _).mp (by decide)⟩
    · exact .inl ⟨by decide, 12, (parseInt0_iff _ _).mp (by decide)⟩
    · exact .inr (.inr (by decide))
    · exact .inl ⟨by decide, 0, (parseInt0_iff _ _).mp (by decide)⟩
    · exact .inr (.inl ⟨by decide, by decide +kernel⟩)
    · exact .inr (.inl ⟨by decide, by decide +kernel⟩)
    · exact .inr (.inr (by decide))
  · refine .inr ⟨go!"45", 0, by decide, ⟨[], 1, go!"45", [], [], .inl ⟨.inl rfl, rfl⟩, ?_, ?_, .inl (by decide), .inl ⟨rfl, rfl⟩, .inl ⟨rfl, rfl⟩, ?_⟩, by decide⟩
    · unfold Digits; decide
    · unfold Digits; decide
    · simp [natOf]
  · refine .inr ⟨go!"60.344", 0, by decide, ⟨[], 1, go!"60", go!"344", [], .inl ⟨.inl rfl, rfl⟩, ?_, ?_, .inl (by decide), .inl ⟨rfl, rfl⟩,
      .inr rfl, ?_⟩, by decide⟩
    · unfold Digits; decide
    · unfold Digits; decide
    · simp [natOf]; norm_num

/-! ## C59: coordinates in the south and in the west -/

/-- Full statement of C59 (not provable), fifth part: whatever the machine makes of a negative number converted to `uint32`, a negative latitude or
longitude is not saved as it was given: what is saved differs from it by at least its size. -/
theorem C59_false_negative (env : Env) (parse : Bytes → Option GoTime) (a : GenArgs) (net : GenNet) (f : Bytes) (_ : (genMain env parse a net).1 = some f)
    (ce : ConnEnv) (e : End) : ∀ n ∈ saves (handleConn env ce f e),
      (a.lat < 0 → |a.lat| ≤ |n.latitude - a.lat|) ∧ (a.lon < 0 → |a.lon| ≤ |n.longitude - a.lon|) := by
  intro n hn
  obtain ⟨⟨h1, _⟩, ⟨h2, _⟩, _⟩ := C67_plausible_connection env ce f e n hn
  constructor
  · intro h
    rw [abs_of_neg h, abs_of_nonneg (by linarith)]; linarith
  · intro h
    rw [abs_of_neg h, abs_of_nonneg (by linarith)]; linarith

/-- It is saved, on a machine that converts negative numbers to 0. -/
example : ∃ f, (genMain ⟨fun _ => 0⟩ parseTime { genExample with lat := -45 } ⟨true, true, true, none⟩).1 = some f ∧
    (saves (handleConn ⟨fun _ => 0⟩ { spare := fun _ => [], clock := fun _ => 0 } f .blocked)).map (·.latitude) = [0] := by
  refine ⟨_, rfl, ?_⟩
  decide +kernel

end Egts
