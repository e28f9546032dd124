import Verif.Proofs.Dsn
import Verif.Props.Connectors

/-! # The settings of the storages reach the client libraries (C73) -/

namespace Egts

variable {W E : Type}

theorem IsInt.unique {s : Bytes} {m n : Int} (h1 : IsInt s m) (h2 : IsInt s n) : m = n := by
  rw [← atoi_iff] at h1 h2
  rw [h1] at h2
  exact Option.some.inj h2

/-- The settings of a storage name one target at most. -/
theorem Names.unique {c : List (Bytes × Bytes)} {name : Bytes} {t u : Target} (h1 : Names c name t) (h2 : Names c name u) : t = u := by
  cases h1 with
  | postgres => cases h2; rfl
  | mysql => cases h2; rfl
  | amqp p hp =>
    cases h2 with
    | amqp q hq =>
      have := hp.unique hq
      rw [Int.ofNat_inj] at this
      rw [this]
  | nats l hl hl' =>
    cases h2 with
    | nats k hk hk' =>
      congr 1
      cases hu : lookup c (go!"user") with
      | none => rw [hl (.inl hu), hk (.inl hu)]
      | some u =>
        cases hp : lookup c (go!"password") with
        | none => rw [hl (.inr hp), hk (.inr hp)]
        | some p => rw [hl' u p hu hp, hk' u p hu hp]
  | redis d hd =>
    cases h2 with
    | redis d' hd' => rw [hd.unique hd']
  | tarantool a b m ha hb hm =>
    cases h2 with
    | tarantool a' b' m' ha' hb' hm' => rw [ha.unique ha', hb.unique hb', hm.unique hm']

theorem seconds_eq (n : Int) (h : -9000000000 ≤ n ∧ n ≤ 9000000000) : seconds n = n * 1000000000 := by
  rw [seconds, Int.bmod_eq_of_le] <;> omega


/-- Each call that a storage makes when it is started and when a record is saved, whatever the libraries answer, is made on a
connection to the target that its settings name. Missing: settings that would have to be quoted or escaped in a connection
string (`Plain`), see `C73_false`. -/
theorem C73_target_partial (lib : Lib W E) (name : Bytes) (hn : name ∈ storageNames) (c : List (Bytes × Bytes)) (hp : Plain name c)
    (hu : Usable name c) :
    ∃ t, Names c name t ∧
      (∀ w, ∃ calls, ((connectors (recorder lib)).init name (some c) w).1.2 = w.2 ++ calls ∧ ∀ x ∈ calls, x.target = some t) ∧
      ∀ r w, ∃ calls, calls ≠ [] ∧ ((connectors (recorder lib)).saver name (some c) r w).1.2 = w.2 ++ calls ∧
        ∀ x ∈ calls, x.target = some t := by
  simp only [storageNames, List.mem_cons, List.not_mem_nil, or_false] at hn
  have hwrap : ∀ x : (W × List Call) × Option E, (wrap x).1 = x.1 := fun _ => rfl
  have hrec : ∀ k w, (recorder lib k w).1.2 = w.2 ++ [k] := fun _ _ => rfl
  -- two calls, the second if the first succeeds
  have two : ∀ (a b : Call) (w y : W × List Call) (t : Target), a.target = some t → b.target = some t →
      (∀ w' e, recorder lib a w = (w', some e) → y = w') → (∀ w', recorder lib a w = (w', none) → y = (recorder lib b w').1) →
      ∃ calls, y.2 = w.2 ++ calls ∧ ∀ x ∈ calls, x.target = some t := by
    intro a b w y t ha hb h1 h2
    have hw := hrec a w
    rcases h : recorder lib a w with ⟨w', _ | e⟩
    · rw [h] at hw
      refine ⟨[a, b], ?_, by simpa using ⟨ha, hb⟩⟩
      rw [h2 w' h, hrec, hw, List.append_assoc]; rfl
    · rw [h] at hw
      exact ⟨[a], by rw [h1 w' e h]; exact hw, by simpa using ha⟩
  rcases hn with rfl | rfl | rfl | rfl | rfl | rfl
  · obtain ⟨h1, h2, h3, h4, h5, h6, h7, h8⟩ : PlainUri (setting c (go!"user")) ∧ _ := hp
    have hr := amqpRead_amqpUrl c h1 h2 h3 h4 h5 h6 h7 h8
    have ht : ∀ url, url = amqpUrl c → (amqpRead url).map Target.amqp = some (.amqp _) := fun url h => by rw [h, hr]; rfl
    refine ⟨_, .amqp (decimal (setting c (go!"port"))) ⟨[], _, rfl, .inl rfl, h6, ?_, ?_, ?_, ?_⟩, fun w => ?_, fun r w => ?_⟩
    · intro x hx
      have := h7 x hx
      simpa [isDigit] using this
    · rw [if_neg (by decide), Int.one_mul]; rfl
    · omega
    · omega
    · exact two (.amqpDial (amqpUrl c)) (.amqpChannel (amqpUrl c)) w (amqpInit (recorder lib) (some c) w).1 _ (ht _ rfl) (ht _ rfl)
        (fun w' e h => by rw [amqpInit, h]) (fun w' h => by rw [amqpInit, h]; rfl)
    · exact ⟨[_], by simp, hrec _ w, fun x hx => by rw [List.mem_singleton.mp hx]; exact ht _ rfl⟩
  · obtain ⟨h1, h2⟩ : (∀ key ∈ [go!"database", go!"host", go!"port", go!"user", go!"password"], PlainPg (setting c key)) ∧ _ := hp
    have hr := pqSettings_pgDsn c h1 h2
    have ht : ∀ dsn, dsn = pgDsn c → (pqSettings dsn).map Target.postgres = some (.postgres _) := fun url h => by rw [h, hr]; rfl
    refine ⟨_, .postgres, fun w => ?_, fun r w => ?_⟩
    · exact two (.sqlOpen (go!"postgres") (pgDsn c)) (.sqlPing (go!"postgres") (pgDsn c)) w (pgInit (recorder lib) (some c) w).1 _ (ht _ rfl) (ht _ rfl)
        (fun w' e h => by rw [pgInit, h]) (fun w' h => by rw [pgInit, h]; rfl)
    · exact ⟨[_], by simp, hrec _ w, fun x hx => by rw [List.mem_singleton.mp hx]; exact ht _ rfl⟩
  · refine ⟨_, .nats (logins (natsOptions c)) ?_ ?_, fun w => ⟨[_], hrec _ w, by simp; rfl⟩, fun r w => ⟨[_], by simp, hrec _ w, by simp; rfl⟩⟩
    · rintro (h | h)
      · simp only [natsOptions, h]; rfl
      · simp only [natsOptions, h]; split <;> rfl
    · intro u p h1 h2
      simp only [natsOptions, h1, h2]; rfl
  · obtain ⟨⟨m, hm⟩, ⟨a, ha⟩, ⟨b, hb⟩⟩ : (∃ n, IsInt (setting c (go!"max_recons")) n) ∧ (∃ n, IsInt (setting c (go!"timeout")) n) ∧
        ∃ n, IsInt (setting c (go!"reconnect")) n := hu
    obtain ⟨h1, h2⟩ : (∀ key ∈ [go!"timeout", go!"reconnect"], ∀ n, IsInt (setting c key) n → -9000000000 ≤ n ∧ n ≤ 9000000000) ∧
        ∀ n, IsInt (setting c (go!"max_recons")) n → 0 ≤ n := hp
    have ea := h1 _ (by simp) a ha
    have eb := h1 _ (by simp) b hb
    have em := h2 m hm
    have em' : m < 2 ^ 63 := by obtain ⟨_, _, _, _, _, _, _, _, h⟩ := hm; exact h
    have ho : (tarantoolOpts c m a b) =
        (⟨a * 1000000000, b * 1000000000, m.toNat, setting c (go!"user"), setting c (go!"password")⟩ : TarantoolOpts) := by
      rw [tarantoolOpts, seconds_eq a ea, seconds_eq b eb, Int.emod_eq_of_lt em (by omega)]
    have am := (atoi_iff _ _).mpr hm
    have aa := (atoi_iff _ _).mpr ha
    have ab := (atoi_iff _ _).mpr hb
    refine ⟨_, .tarantool a b m ha hb hm, fun w => ⟨[.tarantoolConnect (tarantoolAddr c) (tarantoolOpts c m a b)], ?_, ?_⟩,
      fun r w => ⟨[.tarantoolPut (tarantoolAddr c) (tarantoolOpts c m a b) (setting c (go!"queue")) r.toBytes], by simp, ?_, ?_⟩⟩
    · show (tarantoolInit (recorder lib) (some c) w).1.2 = _
      rw [tarantoolInit]
      simp only [am, aa, ab]
      exact hrec _ w
    · simp [Call.target, ho, tarantoolAddr]
    · show (tarantoolSave (recorder lib) c r w).1.2 = _
      rw [tarantoolSave]
      simp only [am, aa, ab]
      exact hrec _ w
    · simp [Call.target, ho, tarantoolAddr]
  · obtain ⟨hs, ⟨d, hd⟩, hq⟩ : (lookup c (go!"server")).isSome ∧ (∃ n, IsInt (setting c (go!"db")) n) ∧ (lookup c (go!"queue")).isSome := hu
    have ad := (atoi_iff _ _).mpr hd
    have hdb : redisDb c true = setting c (go!"db") := rfl
    refine ⟨_, .redis d hd, fun w => ⟨[], ?_, by simp⟩, fun r w => ⟨[.redisPublish (setting c (go!"server")) (setting c (go!"password")) d (setting c (go!"queue")) r.toBytes],
      by simp, ?_, by simp [Call.target]⟩⟩
    · show (redisInit (some c) w).1.2 = _
      rw [List.append_nil, redisInit]
      repeat' split
      all_goals rfl
    · show (redisSave (recorder lib) c r w).1.2 = _
      rw [redisSave]
      simp only [hdb, ad]
      exact hrec _ w
  · have ht : ∀ uri, uri = setting c (go!"uri") → some (Target.mysql uri) = some (.mysql _) := fun _ h => by rw [h]
    refine ⟨_, .mysql, fun w => ?_, fun r w => ?_⟩
    · exact two (.sqlOpen (go!"mysql") (setting c (go!"uri"))) (.sqlPing (go!"mysql") (setting c (go!"uri"))) w (myInit (recorder lib) (some c) w).1 _ (ht _ rfl) (ht _ rfl)
        (fun w' e h => by rw [myInit, h]) (fun w' h => by rw [myInit, h]; rfl)
    · exact ⟨[_], by simp, hrec _ w, fun x hx => by rw [List.mem_singleton.mp hx]; exact ht _ rfl⟩

/-- The settings of a local RabbitMQ. -/
def rabbitExample (password : Bytes) : List (Bytes × Bytes) :=
  [(go!"host", go!"localhost"), (go!"port", go!"5672"), (go!"user", go!"guest"), (go!"password", password), (go!"exchange", go!"receiver")]

/-- The settings of a local PostgreSQL. -/
def pgExample (password : Bytes) : List (Bytes × Bytes) :=
  [(go!"host", go!"localhost"), (go!"port", go!"5432"), (go!"user", go!"postgres"), (go!"password", password),
   (go!"database", go!"receiver"), (go!"table", go!"points"), (go!"sslmode", go!"disable")]

/-- Such settings are plain, and name this target. -/
example : Plain (go!"rabbitmq") (rabbitExample (go!"gu:e@st!")) ∧ Usable (go!"rabbitmq") (rabbitExample (go!"gu:e@st!")) ∧
    Names (rabbitExample (go!"gu:e@st!")) (go!"rabbitmq") (.amqp ⟨go!"guest", go!"gu:e@st!", go!"localhost", 5672⟩) := by
  refine ⟨?_, ?_, .amqp 5672 ?_⟩
  · rw [Plain, if_neg (by decide), if_pos rfl]; simp only [PlainUri]; decide
  · simp [Usable]
  · exact (atoi_iff _ _).mp (by decide)

example : Plain (go!"postgresql") (pgExample (go!"it's")) ∧ Usable (go!"postgresql") (pgExample (go!"it's")) := by
  refine ⟨?_, by simp [Usable]⟩
  rw [Plain, if_pos rfl]; simp only [PlainPg]; decide

example : Plain (go!"tarantool_queue") [(go!"host", go!"localhost"), (go!"port", go!"5672"), (go!"user", go!"guest"), (go!"password", go!"guest"),
      (go!"max_recons", go!"5"), (go!"timeout", go!"1"), (go!"reconnect", go!"1"), (go!"queue", go!"points")] ∧
    Usable (go!"tarantool_queue") [(go!"host", go!"localhost"), (go!"port", go!"5672"), (go!"user", go!"guest"), (go!"password", go!"guest"),
      (go!"max_recons", go!"5"), (go!"timeout", go!"1"), (go!"reconnect", go!"1"), (go!"queue", go!"points")] := by
  have h1 : ∀ n, IsInt (go!"1") n → n = 1 := fun n h => h.unique ((atoi_iff _ _).mp (by decide))
  have h5 : ∀ n, IsInt (go!"5") n → n = 5 := fun n h => h.unique ((atoi_iff _ _).mp (by decide))
  refine ⟨⟨?_, fun n h => by rw [h5 n h]; decide⟩, ⟨5, (atoi_iff _ _).mp (by decide)⟩, ⟨1, (atoi_iff _ _).mp (by decide)⟩, ⟨1, (atoi_iff _ _).mp (by decide)⟩⟩
  intro key hk n h
  simp only [List.mem_cons, List.not_mem_nil, or_false] at hk
  rcases hk with rfl | rfl <;> (rw [h1 n h]; decide)

/-- Without restriction it is false. PostgreSQL with an empty password is contacted with the password `sslmode=disable`, and
with the default `sslmode`. -/
theorem C73_false_postgres (lib : Lib W E) (w : W × List Call) :
    ∃ calls, ((connectors (recorder lib)).init (go!"postgresql") (some (pgExample [])) w).1.2 = w.2 ++ calls ∧
      ∃ x ∈ calls, ∃ u, x.target = some (.postgres u) ∧ ¬ Names (pgExample []) (go!"postgresql") (.postgres u) ∧
        (go!"password", go!"sslmode=disable") ∈ u := by
  have ht : (Call.sqlOpen (go!"postgres") (pgDsn (pgExample []))).target =
      some (.postgres [(go!"dbname", go!"receiver"), (go!"host", go!"localhost"), (go!"port", go!"5432"), (go!"user", go!"postgres"),
        (go!"password", go!"sslmode=disable")]) := by
    simp only [Call.target, if_true]
    have : pqSettings (pgDsn (pgExample [])) = some [(go!"dbname", go!"receiver"), (go!"host", go!"localhost"), (go!"port", go!"5432"),
        (go!"user", go!"postgres"), (go!"password", go!"sslmode=disable")] := by decide +kernel
    rw [this]; rfl
  have hx : ∃ calls, ((connectors (recorder lib)).init (go!"postgresql") (some (pgExample [])) w).1.2 =
      w.2 ++ .sqlOpen (go!"postgres") (pgDsn (pgExample [])) :: calls := by
    show ∃ calls, (pgInit (recorder lib) (some (pgExample [])) w).1.2 = _
    rw [pgInit]
    have hw : (recorder lib (.sqlOpen (go!"postgres") (pgDsn (pgExample []))) w).1.2 =
        w.2 ++ [.sqlOpen (go!"postgres") (pgDsn (pgExample []))] := rfl
    rcases h : recorder lib (.sqlOpen (go!"postgres") (pgDsn (pgExample []))) w with ⟨w', _ | e⟩
    · rw [h] at hw
      exact ⟨[_], by simp only [wrap, recorder]; rw [hw, List.append_assoc]; rfl⟩
    · rw [h] at hw
      exact ⟨[], hw⟩
  obtain ⟨calls, hc⟩ := hx
  refine ⟨_, hc, _, by simp, _, ht, ?_, by simp⟩
  intro h
  have := h.unique .postgres
  revert this
  simp

/-- RabbitMQ with the password `%41bc` is contacted with the password `Abc`. -/
theorem C73_false_rabbitmq (lib : Lib W E) (w : W × List Call) :
    ∃ calls, ((connectors (recorder lib)).init (go!"rabbitmq") (some (rabbitExample (go!"%41bc"))) w).1.2 = w.2 ++ calls ∧
      ∃ x ∈ calls, ∃ u, x.target = some (.amqp u) ∧ ¬ Names (rabbitExample (go!"%41bc")) (go!"rabbitmq") (.amqp u) ∧
        u.password = go!"Abc" := by
  have ht : (Call.amqpDial (amqpUrl (rabbitExample (go!"%41bc")))).target = some (.amqp ⟨go!"guest", go!"Abc", go!"localhost", 5672⟩) := by
    simp only [Call.target]
    have : amqpRead (amqpUrl (rabbitExample (go!"%41bc"))) = some ⟨go!"guest", go!"Abc", go!"localhost", 5672⟩ := by decide +kernel
    rw [this]; rfl
  have hx : ∃ calls, ((connectors (recorder lib)).init (go!"rabbitmq") (some (rabbitExample (go!"%41bc"))) w).1.2 =
      w.2 ++ .amqpDial (amqpUrl (rabbitExample (go!"%41bc"))) :: calls := by
    show ∃ calls, (amqpInit (recorder lib) (some (rabbitExample (go!"%41bc"))) w).1.2 = _
    rw [amqpInit]
    have hw : (recorder lib (.amqpDial (amqpUrl (rabbitExample (go!"%41bc")))) w).1.2 =
        w.2 ++ [.amqpDial (amqpUrl (rabbitExample (go!"%41bc")))] := rfl
    rcases h : recorder lib (.amqpDial (amqpUrl (rabbitExample (go!"%41bc")))) w with ⟨w', _ | e⟩
    · rw [h] at hw
      exact ⟨[_], by simp only [wrap, recorder]; rw [hw, List.append_assoc]; rfl⟩
    · rw [h] at hw
      exact ⟨[], hw⟩
  obtain ⟨calls, hc⟩ := hx
  refine ⟨_, hc, _, by simp, _, ht, ?_, rfl⟩
  intro h
  cases h

end Egts
